import Verif.Model.Crypto
import Verif.Model.Wipe
import Verif.Model.Nfkd
import Verif.Model.Language
import Verif.Data.Gb18030
/-
src/bip39/mnemonic.rs and src/bip39/seed.rs.  `Zeroizing<T>` is modelled as `T`, except in `Mnemonic.Mem`.
-/
namespace Kms.Bip39

/-- src/bip39/mnemonic.rs:40-44; the fields are private. -/
structure Mnemonic where
  phrase : Str
  lang : Language
  entropy : Bytes
  deriving DecidableEq, Repr

/-- `iter.map(|bits| wordlist.get_word(bits))` driven by `join`: the first panic wins.
Used in src/bip39/mnemonic.rs:116-117. -/
def getWords (wl : WordList) : List Bits11 → Res ErrorKind (List Str)
  | [] => .ok []
  | b :: bs => do
    let w ← Language.getWord wl b
    let ws ← getWords wl bs
    .ok (w :: ws)

/-- src/bip39/mnemonic.rs:194-196: `for word in phrase.split(" ") { bits.push(wordmap.get_bits(&word)?); }` -/
def pushWords (m : WordMap) : List Str → BitWriter → Res ErrorKind BitWriter
  | [], w => .ok w
  | word :: rest, w => do
    let b ← Language.getBits m word
    pushWords m rest (w.push b)

/-- `checksum` never returns an error; keep its panic.  Used in src/bip39/mnemonic.rs:208, 214. -/
def checksum' (source : UInt8) (bits : Nat) : Res ErrorKind UInt8 :=
  match checksum source bits with
  | .ok v => .ok v
  | _ => .panic

/-- `v[i]`.  Used in src/bip39/mnemonic.rs:208. -/
def index (v : Bytes) (i : Nat) : Res ErrorKind UInt8 :=
  match v[i]? with
  | some b => .ok b
  | none => .panic

namespace Mnemonic

/-- src/bip39/mnemonic.rs:94-124 `from_entropy_unchecked` -/
def fromEntropyUnchecked (H : Hashes) (entropy : Bytes) (lang : Language) : Res ErrorKind Mnemonic := do
  let checksumByte := H.sha256FirstByte entropy
  let words ← getWords lang.wordlist (BitIter.new (entropy ++ [checksumByte])).toList
  .ok { phrase := join [' '] words, lang, entropy }

/-- src/bip39/mnemonic.rs:87-92 `from_entropy` -/
def fromEntropy (H : Hashes) (entropy : Bytes) (lang : Language) : Res ErrorKind Mnemonic := do
  let _ ← MnemonicType.forKeySize (usizeMul entropy.length 8)
  fromEntropyUnchecked H entropy lang

/-- src/bip39/mnemonic.rs:66-70 `new`; `rng n` is what `gen_random_bytes(n)` (src/bip39/crypto.rs:24-31)
delivers. -/
def new (H : Hashes) (rng : (n : Nat) → ByteArr n) (mtype : MnemonicType) (lang : Language) :
    Res ErrorKind Mnemonic :=
  fromEntropyUnchecked H (rng (mtype.entropyBits / 8)).1 lang

/-- src/bip39/mnemonic.rs:188-221 `phrase_to_entropy`; the `debug_assert` is a panic. -/
def phraseToEntropy (H : Hashes) (phrase : Str) (lang : Language) : Res ErrorKind Bytes := do
  let bits ← pushWords lang.wordmap (splitChar ' ' phrase) BitWriter.withCapacity
  let mtype ← MnemonicType.forWordCount (bits.len / 11)
  if bits.len ≠ mtype.totalBits then .panic else do
  let entropy := bits.intoBytes
  let entropyBytes := mtype.entropyBits / 8
  let last ← index entropy entropyBytes
  let actualChecksum ← checksum' last mtype.checksumBits
  let entropy := entropy.take entropyBytes
  let checksumByte := H.sha256FirstByte entropy
  let expectedChecksum ← checksum' checksumByte mtype.checksumBits
  if actualChecksum ≠ expectedChecksum then .err .invalidChecksum
  else .ok entropy

/-- src/bip39/mnemonic.rs:144-147: the phrase as `from_phrase` stores it. -/
def normalisePhrase (phrase : Str) : Str := join [' '] ((splitWhitespace phrase).map nfkd)

/-- src/bip39/mnemonic.rs:143-161 `from_phrase` -/
def fromPhrase (H : Hashes) (phrase : Str) (lang : Language) : Res ErrorKind Mnemonic := do
  let phrase := normalisePhrase phrase
  let entropy ← phraseToEntropy H phrase lang
  .ok { phrase, lang, entropy }

/-- src/bip39/mnemonic.rs:177-181 `validate` -/
def validate (H : Hashes) (phrase : Str) (lang : Language) : Res ErrorKind Unit := do
  let _ ← phraseToEntropy H phrase lang
  .ok ()

/-- `GB18030_ENCODING.raw_encoder().raw_feed` on one character.  ASCII is one byte; the characters of the
Chinese word list have the two-byte codes of the table.  Other characters never occur in a mnemonic
(theorem `mnemonic_gb_chars`); for them this function is a placeholder, not the codec.
Used in src/bip39/mnemonic.rs:262-273. -/
def gb18030Char (c : Char) : Bytes :=
  if c.toNat ≤ 0x7F then [UInt8.ofNat c.toNat]
  else match Data.gb18030.lookup c.toNat with
    | some code => [UInt8.ofNat (code / 256), UInt8.ofNat code]
    | none => []

/-- src/bip39/mnemonic.rs:262-273 `as_bytes` -/
def asBytes (m : Mnemonic) : Bytes :=
  if m.lang = .chineseSimplified then m.phrase.flatMap gb18030Char else utf8 m.phrase

/-- src/bip39/mnemonic.rs:229-233 `into_phrase` and :322-326 `From<Mnemonic> for String` -/
def intoPhrase (m : Mnemonic) : Str := m.phrase

/-- The memory of a `Mnemonic` (src/bip39/mnemonic.rs:40-44): its two `Zeroizing` buffers. -/
structure Mem where
  phrase : VecMem
  entropy : VecMem

/-- `Drop` of the two `Zeroizing` fields (src/bip39/mnemonic.rs:41,43): the buffers of the phrase and of the entropy afterwards. -/
def drop (m : Mem) : Bytes × Bytes := (m.phrase.zeroize, m.entropy.zeroize)

/-- src/bip39/mnemonic.rs:229-233 `into_phrase`: the string returned, and the buffers left by the drop of `self`, whose phrase
has been replaced by an empty string. -/
def intoPhraseMem (m : Mem) : VecMem × Bytes × Bytes := (m.phrase, drop { m with phrase := .empty })

/-- src/bip39/mnemonic.rs:282-286 `Display` -/
def display (m : Mnemonic) : Str := m.phrase

/-- src/bip39/mnemonic.rs:294-306 `LowerHex` (`upper = false`) and :308-320 `UpperHex` (`upper = true`) -/
def fmtHex (upper alternate : Bool) (m : Mnemonic) : Str :=
  (if alternate then ['0', 'x'] else []) ++ hexBytes upper m.entropy

end Mnemonic

/-- src/bip39/seed.rs:24-26; the field is private. -/
structure Seed where
  bytes : Bytes
  deriving DecidableEq, Repr

namespace Seed

/-- `format!("mnemonic{}", password)`.  src/bip39/seed.rs:33 -/
def salt (password : Str) : Str := ['m', 'n', 'e', 'm', 'o', 'n', 'i', 'c'] ++ password

/-- src/bip39/seed.rs:32-38 `Seed::new` -/
def new (H : Hashes) (mnemonic : Mnemonic) (password : Str) : Seed :=
  let normalizedSalt := nfkd (salt password)
  { bytes := H.pbkdf2 mnemonic.asBytes normalizedSalt }

/-- src/bip39/seed.rs:58-70 `LowerHex`, :72-84 `UpperHex` -/
def fmtHex (upper alternate : Bool) (s : Seed) : Str :=
  (if alternate then ['0', 'x'] else []) ++ hexBytes upper s.bytes

/-- src/bip39/seed.rs:52-56 `Debug`: `{:#X}` -/
def fmtDebug (s : Seed) : Str := s.fmtHex true true

/-- src/bip39/seed.rs:86-90 `drop` of a seed whose vector occupies `v`: the buffer afterwards. -/
def drop (v : VecMem) : Bytes := v.zeroize

end Seed
end Kms.Bip39
