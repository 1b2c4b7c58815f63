import Verif.Model.Text
import Verif.Model.Bits
import Verif.Model.MnemonicType
import Verif.Data.English
import Verif.Data.ChineseSimplified
/-
src/bip39/language.rs.  Only English and ChineseSimplified exist: the other languages are behind
Cargo features that Cargo.toml does not declare, so they are never compiled.
-/
namespace Kms.Bip39

/-- src/bip39/language.rs:114-130 -/
inductive Language where
  | english | chineseSimplified
  deriving DecidableEq, Repr

/-- src/bip39/language.rs:10-12 `WordList { inner }` -/
abbrev WordList := List Str

/-- src/bip39/language.rs:6-8 `WordMap { inner: FxHashMap<&str, Bits11> }`, as a finite function. -/
abbrev WordMap := Str → Option Bits11

/-- The contents of the two files pulled in by `include_str!` (src/bip39/language.rs:66 and :68):
every word followed by a newline. -/
def englishTxt : Str := Data.english.flatMap (· ++ ['\n'])
/-- See `englishTxt`.  Used in src/bip39/language.rs:68. -/
def chineseSimplifiedTxt : Str := Data.chineseSimplified.flatMap (· ++ ['\n'])

/-- src/bip39/language.rs:45-51 `gen_wordlist` (the `debug_assert` on the length is theorem
`wordlist_length`). -/
def genWordlist (langWords : Str) : WordList := splitWhitespace langWords

/-- src/bip39/language.rs:54-63 `gen_wordmap`: collect `(word, index as u16)` pairs into a hash map;
a later pair with the same key overwrites an earlier one. -/
def genWordmap (wl : WordList) : WordMap :=
  wl.zipIdx.foldl (fun m p => fun w => if w = p.1 then some (BitVec.ofNat 16 p.2) else m w) (fun _ => none)

namespace Language

/-- src/bip39/language.rs:173-190 `wordlist` -/
def wordlist : Language → WordList
  | english => genWordlist englishTxt
  | chineseSimplified => genWordlist chineseSimplifiedTxt

/-- src/bip39/language.rs:196-213 `wordmap` -/
def wordmap (l : Language) : WordMap := genWordmap l.wordlist

/-- src/bip39/language.rs:15-20 `WordMap::get_bits` -/
def getBits (m : WordMap) (word : Str) : Res ErrorKind Bits11 :=
  match m word with
  | some n => .ok n
  | none => .err .invalidWord

/-- src/bip39/language.rs:24-26 `WordList::get_word`: slice indexing, panics out of range. -/
def getWord (wl : WordList) (bits : Bits11) : Res ErrorKind Str :=
  match wl[bits.toNat]? with
  | some w => .ok w
  | none => .panic

/-- `Ord for str`: lexicographic on UTF-8 bytes, which is lexicographic on code points.  Used in src/bip39/language.rs:30. -/
def strCmp : Str → Str → Ordering
  | [], [] => .eq
  | [], _ :: _ => .lt
  | _ :: _, [] => .gt
  | a :: as, b :: bs => if a.toNat < b.toNat then .lt else if b.toNat < a.toNat then .gt else strCmp as bs

/-- `slice::binary_search`, the loop of the standard library of the time (`core::slice::binary_search_by`,
Rust 1.52 to 1.81): `size`/`left`/`right`, `mid = left + size / 2`.  `.inl i` is `Ok(i)`, `.inr i` is `Err(i)`.
`fuel` bounds the iterations; `wl.length + 1` is always enough.  Used in src/bip39/language.rs:30. -/
def binarySearchLoop (wl : WordList) (key : Str) : Nat → Nat → Nat → Nat ⊕ Nat
  | 0, left, _ => .inr left
  | fuel + 1, left, right =>
    if left < right then
      let mid := left + (right - left) / 2
      match strCmp (wl.getD mid []) key with
      | .lt => binarySearchLoop wl key fuel (mid + 1) right
      | .gt => binarySearchLoop wl key fuel left mid
      | .eq => .inl mid
    else .inr left

/-- `self.inner.binary_search(&prefix)`.  Used in src/bip39/language.rs:30. -/
def binarySearch (wl : WordList) (key : Str) : Nat ⊕ Nat :=
  binarySearchLoop wl key (wl.length + 1) 0 wl.length

/-- The loop of later standard libraries (Rust 1.82 on): `size`/`base`, `half = size / 2`.  Used in src/bip39/language.rs:30. -/
def binarySearchLoop' (wl : WordList) (key : Str) : Nat → Nat → Nat → Nat
  | 0, base, _ => base
  | fuel + 1, base, size =>
    if size > 1 then
      let half := size / 2
      let mid := base + half
      binarySearchLoop' wl key fuel (if strCmp (wl.getD mid []) key = .gt then base else mid) (size - half)
    else base

/-- `self.inner.binary_search(&prefix)`, later standard libraries.  Used in src/bip39/language.rs:30. -/
def binarySearch' (wl : WordList) (key : Str) : Nat ⊕ Nat :=
  if wl.length = 0 then .inr 0
  else
    let base := binarySearchLoop' wl key (wl.length + 1) 0 wl.length
    match strCmp (wl.getD base []) key with
    | .eq => .inl base
    | .lt => .inr (base + 1)
    | .gt => .inr base

/-- `slice[start..]`: panics when `start > len`.  Used in src/bip39/language.rs:32, 36. -/
def sliceFrom (wl : WordList) (start : Nat) : Res ErrorKind WordList :=
  if start ≤ wl.length then .ok (wl.drop start) else .panic

/-- `.unwrap_or_else(|idx| idx)`.  Used in src/bip39/language.rs:31. -/
def unwrapOrElseId : Nat ⊕ Nat → Nat
  | .inl i => i
  | .inr i => i

/-- src/bip39/language.rs:28-37 `get_words_by_prefix`, over the standard library's `binary_search`;
`word.starts_with(prefix)` is list prefix. -/
def getWordsByPrefix (search : WordList → Str → Nat ⊕ Nat) (wl : WordList) (pfx : Str) : Res ErrorKind WordList := do
  let start := unwrapOrElseId (search wl pfx)
  let tail ← sliceFrom wl start
  let count := (tail.takeWhile (fun word => pfx.isPrefixOf word)).length
  -- `&self.inner[start..start + count]`
  if start + count ≤ wl.length then .ok ((wl.drop start).take count) else .panic

/-- src/bip39/language.rs:135-153 `from_language_code` -/
def fromLanguageCode (code : Str) : Option Language :=
  if toAsciiLowercase code = ['e', 'n'] then some english
  else if toAsciiLowercase code = ['z', 'h', '-', 'c', 'n'] then some chineseSimplified
  else none

/-- src/bip39/language.rs:155-170 `from_phrase` -/
def fromPhrase (phrase : Str) : Option Language :=
  match splitWhitespace phrase with
  | word :: _ =>
    if (getBits english.wordmap word).isOk then some english
    else if (getBits chineseSimplified.wordmap word).isOk then some chineseSimplified
    else none
  | [] => none

/-- src/bip39/language.rs:216-220 -/
def default : Language := english

end Language
end Kms.Bip39
