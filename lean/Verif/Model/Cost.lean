import Verif.Model.ExtendedKey
import Verif.Model.Mnemonic
/-
The functions that read text from outside, with their loop iterations counted: one step for every iteration of every
loop, and one for every byte copied, wiped, compared or handed to a hash function.  Each returns the same value as the
uncounted model of the same code (first part of theorem `C109_reading_is_linear`).  What is done a fixed number of times
per iteration (arithmetic, a bounds check, one probe of a hash table, an amortised `Vec::push`) is part of the step.
-/
namespace Kms

/-- A value and the number of steps it took.
Bookkeeping for counting the steps of src/bip32/extended_key/mod.rs:71-104, src/bip32/derivation_path.rs:83-93,
src/bip39/mnemonic.rs:143-221. -/
structure Counted (α : Type) where
  val : α
  steps : Nat

namespace Counted

/-- Bookkeeping for counting the steps of src/bip32/extended_key/mod.rs:71-104, src/bip32/derivation_path.rs:83-93,
src/bip39/mnemonic.rs:143-221. -/
instance : Monad Counted where
  pure a := ⟨a, 0⟩
  bind x f := ⟨(f x.val).val, x.steps + (f x.val).steps⟩

/-- That many steps.  Bookkeeping, as `Counted`; models no lines of src/ of its own. -/
def ticks (n : Nat) : Counted Unit := ⟨(), n⟩

/-- `?` on a counted result: what follows is not run after an error.
Bookkeeping, as `Counted`; models no lines of src/ of its own. -/
def andThen {ε α β : Type} (x : Counted (Res ε α)) (f : α → Counted (Res ε β)) : Counted (Res ε β) :=
  match x.val with
  | .ok a => ⟨(f a).val, x.steps + (f a).steps⟩
  | .err e => ⟨.err e, x.steps⟩
  | .panic => ⟨.panic, x.steps⟩

end Counted

namespace Base58
open Counted

/-- `Base58.mulAdd` (crate bs58 0.4.0, `decode_into`): one step per digit of the buffer.
Used in src/bip32/extended_key/mod.rs:73. -/
def mulAddC (mul base : Nat) : List Nat → Nat → Counted (List Nat × Nat)
  | [], carry => pure ([], carry)
  | d :: ds, carry => do
    ticks 1
    let c := carry + d * mul
    let r ← mulAddC mul base ds (c / base)
    pure (c % base :: r.1, r.2)

/-- `Base58.pushCarry` (crate bs58 0.4.0, `decode_into`): one step per digit appended or found not to fit.
Used in src/bip32/extended_key/mod.rs:73. -/
def pushCarryC (base cap : Nat) : Nat → List Nat → Nat → Counted (List Nat × Bool)
  | 0, ds, carry => pure (ds, carry == 0)
  | fuel + 1, ds, carry =>
    if carry > 0 then do
      ticks 1
      if ds.length = cap then pure (ds, false)
      else pushCarryC base cap fuel (ds ++ [carry % base]) (carry / base)
    else pure (ds, true)

/-- `Base58.step`.  Used in src/bip32/extended_key/mod.rs:73. -/
def stepC (mul base cap : Nat) (ds : List Nat) (v : Nat) : Counted (List Nat × Bool) := do
  let r ← mulAddC mul base ds v
  pushCarryC base cap r.2 r.1 r.2

/-- `Base58.decodeLoop` (crate bs58 0.4.0, `decode_into`): one step per character, besides the inner loops.
Used in src/bip32/extended_key/mod.rs:73. -/
def decodeLoopC (cap : Nat) : Str → List Nat → Counted (List Nat × Option DecodeError)
  | [], ds => pure (ds, none)
  | c :: rest, ds => do
    ticks 1
    if c.toNat > 127 then pure (ds, some .nonAsciiCharacter)
    else match charVal c with
      | none => pure (ds, some .invalidCharacter)
      | some v => do
        let r ← stepC 58 256 cap ds v
        if r.2 then decodeLoopC cap rest r.1 else pure (r.1, some .bufferTooSmall)

/-- The loop `for _ in input.iter().take_while(|c| **c == zero)` of `decode_into`: it stops when the buffer is full, so
it need not reach the end of the run of `1`s.  Used in src/bip32/extended_key/mod.rs:73. -/
def pushOnesC (cap : Nat) : Str → List Nat → Counted (List Nat × Bool)
  | [], ds => pure (ds, true)
  | c :: rest, ds =>
    if c = '1' then do
      ticks 1
      if ds.length = cap then pure (ds, false) else pushOnesC cap rest (ds ++ [0])
    else pure (ds, true)

/-- `Base58.decodeInto`; `output[..index].reverse()` is one step per byte.  Used in src/bip32/extended_key/mod.rs:73. -/
def decodeIntoC (cap : Nat) (input : Str) : Counted (Bytes × Res DecodeError Nat) := do
  let r ← decodeLoopC cap input []
  match r.2 with
  | some e => pure (buffer cap r.1, .err e)
  | none => do
    let z ← pushOnesC cap input r.1
    if z.2 then do
      ticks z.1.length
      pure (buffer cap z.1.reverse, .ok z.1.length)
    else pure (buffer cap z.1, .err .bufferTooSmall)

/-- `Base58.decodeCheck`: two hashes, then four bytes compared.  Used in src/bip32/extended_key/mod.rs:73. -/
def decodeCheckC (H : Hashes) (cap : Nat) (input : Str) : Counted (Bytes × Res DecodeError Nat) := do
  let r ← decodeIntoC cap input
  match r with
  | (buf, .ok len) =>
    if len < 4 then pure (buf, .err .noChecksum)
    else do
      ticks (buf.take (len - 4)).length
      ticks (H.sha256 (buf.take (len - 4))).1.length
      ticks 4
      if checksum H (buf.take (len - 4)) ≠ (buf.take len).drop (len - 4) then pure (buf, .err .invalidChecksum)
      else pure (buf, .ok (len - 4))
  | (buf, r) => pure (buf, r)

end Base58

namespace Bip32
open Counted

/-- src/bip32/extended_key/mod.rs:71-104 `from_str`: the array of 82 zeros, the decoding, four characters of the prefix
checked, the ranges of the payload copied, the array wiped. -/
def ExtendedKey.fromStrC (H : Hashes) (base58 : Str) : Counted (Res Error ExtendedKey) := do
  ticks (BYTE_SIZE + 4)
  let r ← Base58.decodeCheckC H (BYTE_SIZE + 4) base58
  match r with
  | (_, .err _) => pure (.err .base58)
  | (_, .panic) => pure .panic
  | (buf, .ok decodedLen) =>
    if decodedLen ≠ BYTE_SIZE then pure (.err .decode)
    else do
      ticks 4
      match parsePrefix base58 buf with
      | .err e => pure (.err e)
      | .panic => pure .panic
      | .ok pfx => do
        ticks BYTE_SIZE
        match buf[4]?, tryIntoArr 4 Error.decode ((buf.drop 5).take 4), tryIntoArr 4 Error.decode ((buf.drop 9).take 4),
            tryIntoArr 32 Error.decode ((buf.drop 13).take 32), tryIntoArr 33 Error.decode ((buf.drop 45).take 33) with
        | some depth, .ok parentFingerprint, .ok child, .ok chainCode, .ok keyBytes => do
          ticks buf.length
          pure (.ok ⟨pfx, ⟨depth, parentFingerprint, ChildNumber.fromBytes child, chainCode⟩, keyBytes⟩)
        | _, _, _, _, _ => pure .panic

/-- `parseU32Digits`: one step per digit looked at.  Used in src/bip32/child_number.rs:88. -/
def parseU32DigitsC (acc : Nat) : Str → Counted (Option Nat)
  | [] => pure (some acc)
  | c :: cs => do
    ticks 1
    match digitVal c with
    | none => pure none
    | some d =>
      if acc * 10 < 2 ^ 32 ∧ acc * 10 + d < 2 ^ 32 then parseU32DigitsC (acc * 10 + d) cs else pure none

/-- `parseU32`.  Used in src/bip32/child_number.rs:88. -/
def parseU32C (s : Str) : Counted (Option Nat) :=
  match s with
  | [] => pure none
  | '+' :: [] => pure none
  | '+' :: rest => parseU32DigitsC 0 rest
  | s => parseU32DigitsC 0 s

/-- src/bip32/child_number.rs:79-91 `from_str`: one step for the last character, then the number. -/
def ChildNumber.fromStrC (child : Str) : Counted (Res Error ChildNumber) := do
  ticks 1
  let p := stripApostrophe child
  let r ← parseU32C p.1
  match r with
  | none => pure (.err .childNumber)
  | some index => pure (ChildNumber.new (BitVec.ofNat 32 index) p.2)

/-- src/bip32/derivation_path.rs:91: one step per component reached, besides reading it and finding its end. -/
def DerivationPath.parseAllC : List Str → Counted (Res Error (List ChildNumber))
  | [] => pure (.ok [])
  | s :: rest => do
    ticks (s.length + 1)
    andThen (ChildNumber.fromStrC s) fun c => andThen (parseAllC rest) fun cs => pure (.ok (c :: cs))

/-- src/bip32/derivation_path.rs:79-94 `from_str` -/
def DerivationPath.fromStrC (path : Str) : Counted (Res Error DerivationPath) :=
  match splitChar '/' path with
  | first :: rest => do
    ticks (first.length + 1)
    if first ≠ ['m'] then pure (.err .decode)
    else andThen (parseAllC rest) fun p => pure (.ok ⟨p⟩)
  | [] => pure (.err .decode)

end Bip32

namespace Bip39
open Counted

/-- src/bip39/util.rs:130-134: one step per byte written. -/
def BitWriter.flushC : Nat → BitVec 32 → Bytes → Counted BitWriter
  | offset + 8, remainder, inner => do
    ticks 1
    flushC offset (remainder <<< 8) (inner ++ [UInt8.ofBitVec ((remainder >>> 24).setWidth 8)])
  | offset, remainder, inner => pure { offset, remainder, inner }

/-- src/bip39/util.rs:124-135 `push` -/
def BitWriter.pushC (w : BitWriter) (source : Bits11) : Counted BitWriter :=
  flushC (w.offset + 11) (w.remainder ||| (((source.setWidth 32) <<< (32 - 11)) >>> w.offset)) w.inner

/-- src/bip39/mnemonic.rs:194-196: for each word reached, its bytes are walked once to find its end and once to look it
up, and its bits are written. -/
def pushWordsC (m : WordMap) : List Str → BitWriter → Counted (Res ErrorKind BitWriter)
  | [], w => pure (.ok w)
  | word :: rest, w => do
    ticks ((utf8 word).length + 1)
    ticks (utf8 word).length
    match Language.getBits m word with
    | .ok b => do
      let w ← w.pushC b
      pushWordsC m rest w
    | .err e => pure (.err e)
    | .panic => pure .panic

/-- src/bip39/mnemonic.rs:188-221 `phrase_to_entropy`; the bytes hashed are counted, and one step for what follows the
loop. -/
def Mnemonic.phraseToEntropyC (H : Hashes) (phrase : Str) (lang : Language) : Counted (Res ErrorKind Bytes) :=
  andThen (pushWordsC lang.wordmap (splitChar ' ' phrase) BitWriter.withCapacity) fun bits => do
    ticks 1
    andThen (pure (MnemonicType.forWordCount (bits.len / 11))) fun mtype =>
      if bits.len ≠ mtype.totalBits then pure .panic else
      andThen (pure (index bits.intoBytes (mtype.entropyBits / 8))) fun last =>
      andThen (pure (checksum' last mtype.checksumBits)) fun actualChecksum => do
      let entropy := bits.intoBytes.take (mtype.entropyBits / 8)
      ticks entropy.length
      andThen (pure (checksum' (H.sha256FirstByte entropy) mtype.checksumBits)) fun expectedChecksum =>
      if actualChecksum ≠ expectedChecksum then pure (.err .invalidChecksum) else pure (.ok entropy)

/-- src/bip39/mnemonic.rs:177-181 `validate` -/
def Mnemonic.validateC (H : Hashes) (phrase : Str) (lang : Language) : Counted (Res ErrorKind Unit) :=
  andThen (phraseToEntropyC H phrase lang) fun _ => pure (.ok ())

end Bip39
end Kms
