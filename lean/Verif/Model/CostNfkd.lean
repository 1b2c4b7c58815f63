import Verif.Model.Cost
/-
`Mnemonic::from_phrase` and `Seed::new` with their steps counted as in `Verif.Model.Cost`.  What `slice::sort_by_key` takes
for a slice is a parameter, a function of the length of the slice; the standard library documents O(n log n).
-/
namespace Kms
open Counted

/-- `decompose_compatible` of crate unicode-normalization: one step for the character and one for each character it is replaced
by (a probe of a perfect hash table is part of the step).  Used in src/bip39/mnemonic.rs:146 and src/bip39/seed.rs:34. -/
def decomposeAllC : Str → Counted Str
  | [] => pure []
  | c :: cs => do
    ticks 1
    ticks (decomposeCompatible c).length
    let r ← decomposeAllC cs
    pure (decomposeCompatible c ++ r)

/-- `Decompositions::next` (`push_back`, `sort_pending`, `reset_buffer`) of crate unicode-normalization: a character is pushed
to the buffer, moved to its front at most once, and given out once.
Used in src/bip39/mnemonic.rs:146 and src/bip39/seed.rs:34. -/
def reorderC (sort : Nat → Nat) (pending : Str) : Str → Counted Str
  | [] => do
    ticks (sort pending.length)
    ticks (2 * pending.length)
    pure (sortPending pending)
  | c :: cs => do
    ticks 1
    if combiningClass c = 0 then do
      ticks (sort pending.length)
      ticks (2 * pending.length)
      let r ← reorderC sort [c] cs
      pure (sortPending pending ++ r)
    else reorderC sort (pending ++ [c]) cs

/-- `nfkd`.  Used in src/bip39/mnemonic.rs:146 and src/bip39/seed.rs:34. -/
def nfkdC (sort : Nat → Nat) (s : Str) : Counted Str := do
  let d ← decomposeAllC s
  reorderC sort [] d

namespace Bip39

/-- src/bip39/mnemonic.rs:146, src/bip39/util.rs:47-52: each word is normalised and its bytes are appended. -/
def normaliseWordsC (sort : Nat → Nat) : List Str → Counted (List Str)
  | [] => pure []
  | w :: ws => do
    let n ← nfkdC sort w
    ticks (utf8 n).length
    let r ← normaliseWordsC sort ws
    pure (n :: r)

/-- src/bip39/mnemonic.rs:144-147: `split_whitespace` looks at each character once; one step for each blank written. -/
def Mnemonic.normalisePhraseC (sort : Nat → Nat) (phrase : Str) : Counted Str := do
  ticks phrase.length
  let ws ← normaliseWordsC sort (splitWhitespace phrase)
  ticks ws.length
  pure (join [' '] ws)

/-- src/bip39/mnemonic.rs:143-161 `from_phrase` -/
def Mnemonic.fromPhraseC (sort : Nat → Nat) (H : Hashes) (phrase : Str) (lang : Language) : Counted (Res ErrorKind Mnemonic) := do
  let phrase ← normalisePhraseC sort phrase
  andThen (phraseToEntropyC H phrase lang) fun entropy => pure (.ok { phrase, lang, entropy })

/-- The loop `for _ in 1..rounds` of `pbkdf2_body`: the state of HMAC with its key is copied, 64 bytes are hashed twice, and 64
are added.  Used in src/bip39/crypto.rs:40. -/
def pbkdf2LoopC (H : Hashes) (password : Bytes) : Nat → Bytes → Bytes → Counted Bytes
  | 0, _, chunk => pure chunk
  | n + 1, salt, chunk => do
    let salt' := (H.hmacSha512 password salt).1
    ticks (salt.length + 64)
    ticks 64
    pbkdf2LoopC H password n salt' (xorBytes chunk salt')

/-- `pbkdf2_body` for one chunk: HMAC prepares its key (two blocks of 128 bytes, after hashing a key that is longer than a
block), then the first round, which hashes the salt, then the others.  Used in src/bip39/crypto.rs:40. -/
def pbkdf2C (H : Hashes) (input salt : Bytes) (rounds : Nat) : Counted Bytes := do
  ticks (input.length + 256)
  let u := (H.hmacSha512 input (salt ++ natBE 4 1)).1
  ticks (salt.length + 4 + 64)
  ticks 64
  pbkdf2LoopC H input (rounds - 1) u (xorBytes (List.replicate 64 0) u)

/-- src/bip39/seed.rs:32-38 `Seed::new`, src/bip39/crypto.rs:37-43: the salt is written, normalised and copied, the phrase is
encoded. -/
def Seed.newC (sort : Nat → Nat) (H : Hashes) (mnemonic : Mnemonic) (password : Str) : Counted Seed := do
  ticks (utf8 (salt password)).length
  let normalizedSalt ← nfkdC sort (salt password)
  ticks (utf8 normalizedSalt).length
  ticks mnemonic.asBytes.length
  let bytes ← pbkdf2C H mnemonic.asBytes (utf8 normalizedSalt) 2048
  pure { bytes }

end Bip39
end Kms
