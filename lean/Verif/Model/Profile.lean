import Verif.Model.Mnemonic
/-
The functions of src/bip39 that compute with machine integers, once more, with the way the crate is compiled as a parameter:
Cargo's `overflow-checks` and `debug-assertions`, and the width of `usize`.  The rest of the model fixes one choice
(64-bit `usize`, wrapping multiplication, failing `debug_assert!` is a panic, unbounded `Nat` for offsets and lengths);
theorem `C85_build_profile` says that the choice makes no difference.
-/
namespace Kms

/-- How the crate is compiled: the profile settings `overflow-checks` and `debug-assertions` (Cargo.toml declares no
profile, so both are on in `dev` and off in `release`), and the number of bits of `usize` on the target.
The profile is not set in Cargo.toml; used for the arithmetic of src/bip39/util.rs:118-195, src/bip39/mnemonic.rs:67-208 and
src/bip39/mnemonic_type.rs:131-181. -/
structure Profile where
  overflowChecks : Bool
  debugAssertions : Bool
  usizeBits : Nat
  deriving DecidableEq, Repr

namespace Profile
variable {ε : Type}

/-- An arithmetic result in an unsigned type of `bits` bits: itself if it fits, otherwise a panic (checks on) or the residue
modulo 2^bits (checks off).
The profile is not set in Cargo.toml; used for the arithmetic of src/bip39/util.rs:118-195, src/bip39/mnemonic.rs:67-208 and
src/bip39/mnemonic_type.rs:131-181. -/
def arith (P : Profile) (bits : Nat) (x : Int) : Res ε Nat :=
  if 0 ≤ x ∧ x < (2 : Int) ^ bits then .ok x.toNat
  else if P.overflowChecks then .panic
  else .ok (x % (2 : Int) ^ bits).toNat

/-- `a + b`.
The profile is not set in Cargo.toml; used for the arithmetic of src/bip39/util.rs:118-195, src/bip39/mnemonic.rs:67-208 and
src/bip39/mnemonic_type.rs:131-181. -/
def add (P : Profile) (bits a b : Nat) : Res ε Nat := P.arith bits ((a : Int) + b)
/-- `a - b`.
The profile is not set in Cargo.toml; used for the arithmetic of src/bip39/util.rs:118-195, src/bip39/mnemonic.rs:67-208 and
src/bip39/mnemonic_type.rs:131-181. -/
def sub (P : Profile) (bits a b : Nat) : Res ε Nat := P.arith bits ((a : Int) - b)
/-- `a * b`.
The profile is not set in Cargo.toml; used for the arithmetic of src/bip39/util.rs:118-195, src/bip39/mnemonic.rs:67-208 and
src/bip39/mnemonic_type.rs:131-181. -/
def mul (P : Profile) (bits a b : Nat) : Res ε Nat := P.arith bits ((a : Int) * b)

/-- `x << n`: an amount not below the width panics (checks on) or is reduced modulo the width (checks off).
The profile is not set in Cargo.toml; used for the arithmetic of src/bip39/util.rs:118-195, src/bip39/mnemonic.rs:67-208 and
src/bip39/mnemonic_type.rs:131-181. -/
def shl (P : Profile) {w : Nat} (x : BitVec w) (n : Nat) : Res ε (BitVec w) :=
  if n < w then .ok (x <<< n) else if P.overflowChecks then .panic else .ok (x <<< (n % w))

/-- `x >> n`.
The profile is not set in Cargo.toml; used for the arithmetic of src/bip39/util.rs:118-195, src/bip39/mnemonic.rs:67-208 and
src/bip39/mnemonic_type.rs:131-181. -/
def shr (P : Profile) {w : Nat} (x : BitVec w) (n : Nat) : Res ε (BitVec w) :=
  if n < w then .ok (x >>> n) else if P.overflowChecks then .panic else .ok (x >>> (n % w))

/-- `debug_assert!(b)`.
The profile is not set in Cargo.toml; used for the arithmetic of src/bip39/util.rs:118-195, src/bip39/mnemonic.rs:67-208 and
src/bip39/mnemonic_type.rs:131-181. -/
def debugAssert (P : Profile) (b : Bool) : Res ε Unit :=
  if P.debugAssertions && !b then .panic else .ok ()

/-- `Vec::<u8>::with_capacity(n)`, `String::with_capacity(n)`: more than `isize::MAX` bytes is "capacity overflow".  (Running out
of memory is not modelled.).  Used in src/bip39/util.rs:16. -/
def withCapacity (P : Profile) (n : Nat) : Res ε Unit :=
  if n < 2 ^ (P.usizeBits - 1) then .ok () else .panic

end Profile

namespace Bip39
variable {ε : Type}

/-- src/bip39/util.rs:110-122 `with_capacity` -/
def BitWriter.withCapacityP (P : Profile) (capacity : Nat) : Res ε BitWriter := do
  let bytes := capacity / 8
  let bytes ← if capacity % 8 ≠ 0 then P.add P.usizeBits bytes 1 else .ok bytes
  P.withCapacity bytes
  .ok { offset := 0, remainder := 0, inner := [] }

/-- src/bip39/util.rs:130-134: `while self.offset >= 8 { … }`.  The first argument bounds the iterations; the offset itself is
always enough. -/
def BitWriter.flushP (P : Profile) : Nat → BitWriter → Res ε BitWriter
  | 0, w => .ok w
  | fuel + 1, w =>
    if 8 ≤ w.offset then do
      let top ← P.shr w.remainder 24
      let remainder ← P.shl w.remainder 8
      let offset ← P.sub P.usizeBits w.offset 8
      flushP P fuel { offset, remainder, inner := w.inner ++ [UInt8.ofBitVec (top.setWidth 8)] }
    else .ok w

/-- src/bip39/util.rs:124-135 `push` at `B = Bits11` -/
def BitWriter.pushP (P : Profile) (w : BitWriter) (source : Bits11) : Res ε BitWriter := do
  let shift ← P.sub P.usizeBits 32 11
  let left ← P.shl (source.setWidth 32) shift
  let right ← P.shr left w.offset
  let offset ← P.add P.usizeBits w.offset 11
  flushP P offset { w with offset, remainder := w.remainder ||| right }

/-- src/bip39/util.rs:137-139 `len` -/
def BitWriter.lenP (P : Profile) (w : BitWriter) : Res ε Nat := do
  let n ← P.mul P.usizeBits w.inner.length 8
  P.add P.usizeBits n w.offset

/-- src/bip39/util.rs:141-147 `into_bytes` -/
def BitWriter.intoBytesP (P : Profile) (w : BitWriter) : Res ε Bytes :=
  if w.offset ≠ 0 then do
    let top ← P.shr w.remainder 24
    .ok (w.inner ++ [UInt8.ofBitVec (top.setWidth 8)])
  else .ok w.inner

/-- src/bip39/util.rs:184-189: the loop of `next` -/
def BitIter.fillP (P : Profile) : Bytes → Nat → BitVec 64 → Res ε (Option BitIter)
  | [], read, buffer => if read < 11 then .ok none else .ok (some { source := [], read, buffer })
  | b :: rest, read, buffer =>
    if read < 11 then do
      let read ← P.add P.usizeBits read 8
      let amount ← P.sub P.usizeBits 64 read
      let bits ← P.shl (b.toBitVec.setWidth 64) amount
      fillP P rest read (buffer ||| bits)
    else .ok (some { source := b :: rest, read, buffer })

/-- src/bip39/util.rs:183-197 `next` -/
def BitIter.nextP (P : Profile) (it : BitIter) : Res ε (Option (Bits11 × BitIter)) := do
  match ← fillP P it.source it.read it.buffer with
  | none => .ok none
  | some it' => do
    let amount ← P.sub P.usizeBits 64 11
    let result ← P.shr it'.buffer amount
    let buffer ← P.shl it'.buffer 11
    let read ← P.sub P.usizeBits it'.read 11
    .ok (some (result.setWidth 16, { it' with buffer, read }))

/-- src/bip39/util.rs:199-206 `size_hint`, the lower bound (the upper one is computed from the same number).  The source is
`entropy.iter().chain(Some(&checksum_byte))`, which knows its length. -/
def BitIter.sizeHintP (P : Profile) (it : BitIter) : Res ε Nat := do
  let n ← P.mul P.usizeBits it.source.length 8
  .ok (n / 11)

/-- src/bip39/util.rs:20-23: the loop of `join` over `bits().map(get_word)` (src/bip39/mnemonic.rs:113-118).  The first argument
bounds the iterations. -/
def wordsP (P : Profile) (wl : WordList) : Nat → BitIter → Res ErrorKind (List Str)
  | 0, _ => .ok []
  | fuel + 1, it => do
    match ← it.nextP P with
    | none => .ok []
    | some (v, it') => do
      let w ← Language.getWord wl v
      let ws ← wordsP P wl fuel it'
      .ok (w :: ws)

/-- src/bip39/util.rs:16: `String::with_capacity(lower * (10 + glue.len()))` -/
def joinCapacityP (P : Profile) (lower : Nat) : Res ErrorKind Unit := do
  let n ← P.add P.usizeBits 10 1
  let n ← P.mul P.usizeBits lower n
  P.withCapacity n

/-- src/bip39/util.rs:4-26 `join(" ")` over the words of the bit iterator -/
def joinBitsP (P : Profile) (wl : WordList) (it : BitIter) : Res ErrorKind Str := do
  match ← it.nextP P with
  | none => .ok []
  | some (v, it') => do
    let first ← Language.getWord wl v
    let lower ← it'.sizeHintP P
    joinCapacityP P lower
    let rest ← wordsP P wl (it'.source.length * 8 + it'.read) it'
    .ok (join [' '] (first :: rest))

/-- src/bip39/util.rs:4-26 `join(" ")` over `split_whitespace().map(nfkd)`, whose `size_hint` has lower bound 0 (it filters). -/
def joinWordsP (P : Profile) : List Str → Res ErrorKind Str
  | [] => .ok []
  | w :: ws => do
    joinCapacityP P 0
    .ok (join [' '] (w :: ws))

/-- src/bip39/util.rs:210-214 `checksum` -/
def checksumP (P : Profile) (source : UInt8) (bits : Nat) : Res ErrorKind UInt8 := do
  P.debugAssert (bits ≤ 8)
  let amount ← P.sub 8 8 bits
  let r ← P.shr source.toBitVec amount
  .ok (UInt8.ofBitVec r)

namespace MnemonicType

/-- src/bip39/mnemonic_type.rs:148-150 `entropy_bits` -/
def entropyBitsP (P : Profile) (t : MnemonicType) : Res ErrorKind Nat := do
  let r ← P.shr (BitVec.ofNat P.usizeBits t.discr) ENTROPY_OFFSET
  .ok r.toNat

/-- src/bip39/mnemonic_type.rs:165-167 `checksum_bits`: casts `usize as u8` -/
def checksumBitsP (P : Profile) (t : MnemonicType) : Nat :=
  ((BitVec.ofNat P.usizeBits t.discr).setWidth 8).toNat

/-- src/bip39/mnemonic_type.rs:131-133 `total_bits` -/
def totalBitsP (P : Profile) (t : MnemonicType) : Res ErrorKind Nat := do
  let e ← t.entropyBitsP P
  P.add P.usizeBits e (t.checksumBitsP P)

/-- src/bip39/mnemonic_type.rs:180-182 `word_count` -/
def wordCountP (P : Profile) (t : MnemonicType) : Res ErrorKind Nat := do
  let n ← t.totalBitsP P
  .ok (n / 11)

end MnemonicType

/-- src/bip39/language.rs:45-51 `gen_wordlist`, with its `debug_assert!` -/
def genWordlistP (P : Profile) (langWords : Str) : Res ErrorKind WordList := do
  P.debugAssert ((splitWhitespace langWords).length = 2048)
  .ok (splitWhitespace langWords)

/-- src/bip39/language.rs:173-190 `wordlist` -/
def Language.wordlistP (P : Profile) : Language → Res ErrorKind WordList
  | .english => genWordlistP P englishTxt
  | .chineseSimplified => genWordlistP P chineseSimplifiedTxt

/-- src/bip39/language.rs:196-213 `wordmap` -/
def Language.wordmapP (P : Profile) (l : Language) : Res ErrorKind WordMap := do
  let wl ← l.wordlistP P
  .ok (genWordmap wl)

/-- src/bip39/language.rs:28-37 `get_words_by_prefix`; the searches of the standard library are compiled with it. -/
def getWordsByPrefixP (P : Profile) (search : WordList → Str → Nat ⊕ Nat) (wl : WordList) (pfx : Str) :
    Res ErrorKind WordList := do
  let start := Language.unwrapOrElseId (search wl pfx)
  let tail ← Language.sliceFrom wl start
  let count := (tail.takeWhile (fun word => pfx.isPrefixOf word)).length
  let stop ← P.add P.usizeBits start count
  -- `&self.inner[start..stop]`
  if start ≤ stop ∧ stop ≤ wl.length then .ok ((wl.drop start).take (stop - start)) else .panic

/-- src/bip39/mnemonic.rs:194-196: the loop of `phrase_to_entropy` -/
def pushWordsP (P : Profile) (m : WordMap) : List Str → BitWriter → Res ErrorKind BitWriter
  | [], w => .ok w
  | word :: rest, w => do
    let b ← Language.getBits m word
    let w ← w.pushP P b
    pushWordsP P m rest w

namespace Mnemonic

/-- src/bip39/mnemonic.rs:94-124 `from_entropy_unchecked` -/
def fromEntropyUncheckedP (P : Profile) (H : Hashes) (entropy : Bytes) (lang : Language) : Res ErrorKind Mnemonic := do
  let wordlist ← lang.wordlistP P
  let checksumByte := H.sha256FirstByte entropy
  let phrase ← joinBitsP P wordlist (BitIter.new (entropy ++ [checksumByte]))
  .ok { phrase, lang, entropy }

/-- src/bip39/mnemonic.rs:87-92 `from_entropy` -/
def fromEntropyP (P : Profile) (H : Hashes) (entropy : Bytes) (lang : Language) : Res ErrorKind Mnemonic := do
  let size ← P.mul P.usizeBits entropy.length 8
  let _ ← MnemonicType.forKeySize size
  fromEntropyUncheckedP P H entropy lang

/-- src/bip39/mnemonic.rs:66-70 `new` -/
def newP (P : Profile) (H : Hashes) (rng : (n : Nat) → ByteArr n) (mtype : MnemonicType) (lang : Language) :
    Res ErrorKind Mnemonic := do
  let bits ← mtype.entropyBitsP P
  fromEntropyUncheckedP P H (rng (bits / 8)).1 lang

/-- src/bip39/mnemonic.rs:188-221 `phrase_to_entropy` -/
def phraseToEntropyP (P : Profile) (H : Hashes) (phrase : Str) (lang : Language) : Res ErrorKind Bytes := do
  let wordmap ← lang.wordmapP P
  let bits ← BitWriter.withCapacityP P 264
  let bits ← pushWordsP P wordmap (splitChar ' ' phrase) bits
  let len ← bits.lenP P
  let mtype ← MnemonicType.forWordCount (len / 11)
  -- `debug_assert!(bits.len() == mtype.total_bits())`: the condition is not evaluated when assertions are off
  if P.debugAssertions then do
    let len ← bits.lenP P
    let total ← mtype.totalBitsP P
    if len ≠ total then .panic
  let entropy ← bits.intoBytesP P
  let entropyBits ← mtype.entropyBitsP P
  let entropyBytes := entropyBits / 8
  let last ← index entropy entropyBytes
  let actualChecksum ← checksumP P last (mtype.checksumBitsP P)
  let entropy := entropy.take entropyBytes
  let checksumByte := H.sha256FirstByte entropy
  let expectedChecksum ← checksumP P checksumByte (mtype.checksumBitsP P)
  if actualChecksum ≠ expectedChecksum then .err .invalidChecksum
  else .ok entropy

/-- src/bip39/mnemonic.rs:143-161 `from_phrase` -/
def fromPhraseP (P : Profile) (H : Hashes) (phrase : Str) (lang : Language) : Res ErrorKind Mnemonic := do
  let phrase ← joinWordsP P ((splitWhitespace phrase).map nfkd)
  let entropy ← phraseToEntropyP P H phrase lang
  .ok { phrase, lang, entropy }

/-- src/bip39/mnemonic.rs:177-181 `validate` -/
def validateP (P : Profile) (H : Hashes) (phrase : Str) (lang : Language) : Res ErrorKind Unit := do
  let _ ← phraseToEntropyP P H phrase lang
  .ok ()

end Mnemonic
end Bip39
end Kms
