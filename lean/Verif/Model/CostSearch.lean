import Verif.Model.Cost
/-
Searching words by prefix and detecting the language of a phrase, with steps counted as in `Verif.Model.Cost`: one step for
every iteration of a loop, and one for every character compared, skipped or hashed (for hashing: every byte).
-/
namespace Kms.Bip39
open Counted

/-- `Ord for str` (`Language.strCmp`): one step per pair of characters compared.  Used in src/bip39/language.rs:30. -/
def strCmpC : Str → Str → Counted Ordering
  | [], [] => pure .eq
  | [], _ :: _ => pure .lt
  | _ :: _, [] => pure .gt
  | a :: as, b :: bs => do
    ticks 1
    if a.toNat < b.toNat then pure .lt else if b.toNat < a.toNat then pure .gt else strCmpC as bs

/-- `str::starts_with(&str)`: one step per pair of characters compared.  Used in src/bip39/language.rs:33. -/
def startsWithC : Str → Str → Counted Bool
  | [], _ => pure true
  | _ :: _, [] => pure false
  | p :: ps, c :: cs => do
    ticks 1
    if p = c then startsWithC ps cs else pure false

/-- `Language.binarySearchLoop` (`core::slice::binary_search_by`, Rust 1.52 to 1.81): one step per iteration, besides the
comparison.  Used in src/bip39/language.rs:30. -/
def binarySearchLoopC (wl : WordList) (key : Str) : Nat → Nat → Nat → Counted (Nat ⊕ Nat)
  | 0, left, _ => pure (.inr left)
  | fuel + 1, left, right =>
    if left < right then do
      ticks 1
      let mid := left + (right - left) / 2
      let c ← strCmpC (wl.getD mid []) key
      match c with
      | .lt => binarySearchLoopC wl key fuel (mid + 1) right
      | .gt => binarySearchLoopC wl key fuel left mid
      | .eq => pure (.inl mid)
    else pure (.inr left)

/-- `Language.binarySearch`.  Used in src/bip39/language.rs:30. -/
def binarySearchC (wl : WordList) (key : Str) : Counted (Nat ⊕ Nat) :=
  binarySearchLoopC wl key (wl.length + 1) 0 wl.length

/-- `Language.binarySearchLoop'` (Rust 1.82 on): one step per iteration, besides the comparison.
Used in src/bip39/language.rs:30. -/
def binarySearchLoopC' (wl : WordList) (key : Str) : Nat → Nat → Nat → Counted Nat
  | 0, base, _ => pure base
  | fuel + 1, base, size =>
    if size > 1 then do
      ticks 1
      let half := size / 2
      let mid := base + half
      let c ← strCmpC (wl.getD mid []) key
      binarySearchLoopC' wl key fuel (if c = .gt then base else mid) (size - half)
    else pure base

/-- `Language.binarySearch'`: the last comparison is one more step.  Used in src/bip39/language.rs:30. -/
def binarySearchC' (wl : WordList) (key : Str) : Counted (Nat ⊕ Nat) :=
  if wl.length = 0 then pure (.inr 0)
  else do
    let base ← binarySearchLoopC' wl key (wl.length + 1) 0 wl.length
    ticks 1
    let c ← strCmpC (wl.getD base []) key
    match c with
    | .eq => pure (.inl base)
    | .lt => pure (.inr (base + 1))
    | .gt => pure (.inr base)

/-- src/bip39/language.rs:32-34 `.iter().take_while(..).count()`: one step per word looked at, besides the comparison. -/
def countPrefixedC (pfx : Str) : WordList → Counted Nat
  | [] => pure 0
  | word :: rest => do
    ticks 1
    let b ← startsWithC pfx word
    if b then do
      let n ← countPrefixedC pfx rest
      pure (n + 1)
    else pure 0

/-- src/bip39/language.rs:28-37 `get_words_by_prefix` (`Language.getWordsByPrefix`). -/
def getWordsByPrefixC (search : WordList → Str → Counted (Nat ⊕ Nat)) (wl : WordList) (pfx : Str) :
    Counted (Res ErrorKind WordList) := do
  let found ← search wl pfx
  let start := Language.unwrapOrElseId found
  andThen (pure (Language.sliceFrom wl start)) fun tail => do
    let count ← countPrefixedC pfx tail
    if start + count ≤ wl.length then pure (.ok ((wl.drop start).take count)) else pure .panic

/-- `str::split_whitespace().next()`, the word: one step per character up to and including the white space after it.
Used in src/bip39/language.rs:156. -/
def restOfWordC : Str → Counted Str
  | [] => pure []
  | c :: cs => do
    ticks 1
    if isWhitespace c then pure []
    else do
      let w ← restOfWordC cs
      pure (c :: w)

/-- `str::split_whitespace().next()`: one step per white space character before the word.  Used in src/bip39/language.rs:156. -/
def firstWordC : Str → Counted (Option Str)
  | [] => pure none
  | c :: cs =>
    if isWhitespace c then do
      ticks 1
      firstWordC cs
    else do
      ticks 1
      let w ← restOfWordC cs
      pure (some (c :: w))

/-- src/bip39/language.rs:155-170 `from_phrase`: the bytes of the word are hashed for each map asked. -/
def Language.fromPhraseC (phrase : Str) : Counted (Option Language) := do
  let w ← firstWordC phrase
  match w with
  | none => pure none
  | some word => do
    ticks (utf8 word).length
    if (Language.getBits english.wordmap word).isOk then pure (some english)
    else do
      ticks (utf8 word).length
      if (Language.getBits chineseSimplified.wordmap word).isOk then pure (some chineseSimplified)
      else pure none

end Kms.Bip39
