import Verif.Model.Mnemonic
import Verif.Data.ChineseTraditional
import Verif.Data.French
import Verif.Data.Italian
import Verif.Data.Japanese
import Verif.Data.Korean
import Verif.Data.Spanish
/-
src/bip39/language.rs with the six languages that stand under `#[cfg(feature = ...)]`, and the mnemonic code
(src/bip39/mnemonic.rs, src/bip39/seed.rs) over all eight.  Cargo.toml does not declare the six features, so the
program built from it is the one of Model/Language.lean and Model/Mnemonic.lean; this file is the source text in a
build that declares and enables any of them.
-/
namespace Kms.Bip39.All

/-- src/bip39/language.rs:114-130, all variants -/
inductive Lang where
  | english | chineseSimplified | chineseTraditional | french | italian | japanese | korean | spanish
  deriving DecidableEq, Repr

/-- Which of the six features a build enables (src/bip39/language.rs:69-85 and the other `cfg` attributes). -/
structure Features where
  chineseTraditional : Bool
  french : Bool
  italian : Bool
  japanese : Bool
  korean : Bool
  spanish : Bool
  deriving DecidableEq, Repr

/-- The variants that exist in a build (src/bip39/language.rs:116-129). -/
def Lang.compiled (F : Features) : Lang → Bool
  | english | chineseSimplified => true
  | chineseTraditional => F.chineseTraditional
  | french => F.french
  | italian => F.italian
  | japanese => F.japanese
  | korean => F.korean
  | spanish => F.spanish

/-- The text of a word file (`include_str!`, src/bip39/language.rs:66-85): every word followed by a newline. -/
def fileTxt (ws : List Str) : Str := ws.flatMap (· ++ ['\n'])

namespace Lang

/-- src/bip39/language.rs:173-190 `wordlist` -/
def wordlist : Lang → WordList
  | english => genWordlist (fileTxt Data.english)
  | chineseSimplified => genWordlist (fileTxt Data.chineseSimplified)
  | chineseTraditional => genWordlist (fileTxt Data.chineseTraditional)
  | french => genWordlist (fileTxt Data.french)
  | italian => genWordlist (fileTxt Data.italian)
  | japanese => genWordlist (fileTxt Data.japanese)
  | korean => genWordlist (fileTxt Data.korean)
  | spanish => genWordlist (fileTxt Data.spanish)

/-- src/bip39/language.rs:196-213 `wordmap` -/
def wordmap (l : Lang) : WordMap := genWordmap l.wordlist

/-- src/bip39/language.rs:135-153 `from_language_code`; an arm whose feature is off is not there. -/
def fromLanguageCode (F : Features) (code : Str) : Option Lang :=
  let c := toAsciiLowercase code
  if c = "en".toList then some english
  else if c = "zh-cn".toList then some chineseSimplified
  else if F.chineseTraditional ∧ c = "zh-tw".toList then some chineseTraditional
  else if F.french ∧ c = "fr".toList then some french
  else if F.italian ∧ c = "it".toList then some italian
  else if F.japanese ∧ c = "ja".toList then some japanese
  else if F.korean ∧ c = "ko".toList then some korean
  else if F.spanish ∧ c = "es".toList then some spanish
  else none

/-- src/bip39/language.rs:155-170 `from_phrase`, the same in every build -/
def fromPhrase (phrase : Str) : Option Lang :=
  match splitWhitespace phrase with
  | word :: _ =>
    if (Language.getBits english.wordmap word).isOk then some english
    else if (Language.getBits chineseSimplified.wordmap word).isOk then some chineseSimplified
    else none
  | [] => none

end Lang

/-- src/bip39/mnemonic.rs:40-44 -/
structure Mnemonic where
  phrase : Str
  lang : Lang
  entropy : Bytes
  deriving DecidableEq, Repr

namespace Mnemonic

/-- src/bip39/mnemonic.rs:94-124 `from_entropy_unchecked` -/
def fromEntropyUnchecked (H : Hashes) (entropy : Bytes) (lang : Lang) : Res ErrorKind Mnemonic := do
  let checksumByte := H.sha256FirstByte entropy
  let words ← getWords lang.wordlist (BitIter.new (entropy ++ [checksumByte])).toList
  .ok { phrase := join [' '] words, lang, entropy }

/-- src/bip39/mnemonic.rs:87-92 `from_entropy` -/
def fromEntropy (H : Hashes) (entropy : Bytes) (lang : Lang) : Res ErrorKind Mnemonic := do
  let _ ← MnemonicType.forKeySize (usizeMul entropy.length 8)
  fromEntropyUnchecked H entropy lang

/-- src/bip39/mnemonic.rs:66-70 `new` -/
def new (H : Hashes) (rng : (n : Nat) → ByteArr n) (mtype : MnemonicType) (lang : Lang) : Res ErrorKind Mnemonic :=
  fromEntropyUnchecked H (rng (mtype.entropyBits / 8)).1 lang

/-- src/bip39/mnemonic.rs:188-221 `phrase_to_entropy` -/
def phraseToEntropy (H : Hashes) (phrase : Str) (lang : Lang) : Res ErrorKind Bytes := do
  let bits ← pushWords lang.wordmap (splitChar ' ' phrase) BitWriter.withCapacity
  let mtype ← MnemonicType.forWordCount (bits.len / 11)
  if bits.len ≠ mtype.totalBits then .panic else do
  let entropy := bits.intoBytes
  let entropyBytes := mtype.entropyBits / 8
  let last ← index entropy entropyBytes
  let actualChecksum ← checksum' last mtype.checksumBits
  let entropy := entropy.take entropyBytes
  let checksumByte := H.sha256FirstByte entropy
  let expectedChecksum ← checksum' checksumByte mtype.checksumBits
  if actualChecksum ≠ expectedChecksum then .err .invalidChecksum
  else .ok entropy

/-- src/bip39/mnemonic.rs:143-161 `from_phrase` -/
def fromPhrase (H : Hashes) (phrase : Str) (lang : Lang) : Res ErrorKind Mnemonic := do
  let phrase := join [' '] ((splitWhitespace phrase).map nfkd)
  let entropy ← phraseToEntropy H phrase lang
  .ok { phrase, lang, entropy }

/-- src/bip39/mnemonic.rs:177-181 `validate` -/
def validate (H : Hashes) (phrase : Str) (lang : Lang) : Res ErrorKind Unit := do
  let _ ← phraseToEntropy H phrase lang
  .ok ()

/-- src/bip39/mnemonic.rs:262-273 `as_bytes`: GB18030 for ChineseSimplified only -/
def asBytes (m : Mnemonic) : Bytes :=
  if m.lang = .chineseSimplified then m.phrase.flatMap Bip39.Mnemonic.gb18030Char else utf8 m.phrase

end Mnemonic

/-- src/bip39/seed.rs:32-38 `Seed::new` -/
def Seed.new (H : Hashes) (mnemonic : Mnemonic) (password : Str) : Seed :=
  { bytes := H.pbkdf2 mnemonic.asBytes (nfkd (Seed.salt password)) }

end Kms.Bip39.All
