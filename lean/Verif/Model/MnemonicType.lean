import Verif.Model.Text
/-
src/bip39/mnemonic_type.rs and src/bip39/error.rs
-/
namespace Kms.Bip39

/-- src/bip39/mnemonic_type.rs:33-40 -/
inductive MnemonicType where
  | words12 | words15 | words18 | words21 | words24
  deriving DecidableEq, Repr

/-- src/bip39/error.rs:5-16 (`InvalidEntropyLength` is never constructed by the crate). -/
inductive ErrorKind where
  | invalidChecksum
  | invalidWord
  | invalidKeysize (n : Nat)
  | invalidWordLength (n : Nat)
  | invalidEntropyLength (n : Nat) (t : MnemonicType)
  deriving DecidableEq, Repr

/-- `usize` arithmetic is modulo 2^64 (64-bit target, release profile).  Used in src/bip39/mnemonic.rs:89. -/
def usizeMul (a b : Nat) : Nat := a * b % 2 ^ 64

namespace MnemonicType

/-- src/bip39/mnemonic_type.rs:5 -/
def ENTROPY_OFFSET : Nat := 8

/-- src/bip39/mnemonic_type.rs:35-39: the discriminants `(entropy_bits << ENTROPY_OFFSET) | checksum_bits`. -/
def discr : MnemonicType → Nat
  | words12 => (128 <<< ENTROPY_OFFSET) ||| 4
  | words15 => (160 <<< ENTROPY_OFFSET) ||| 5
  | words18 => (192 <<< ENTROPY_OFFSET) ||| 6
  | words21 => (224 <<< ENTROPY_OFFSET) ||| 7
  | words24 => (256 <<< ENTROPY_OFFSET) ||| 8

/-- src/bip39/mnemonic_type.rs:54-65 -/
def forWordCount (size : Nat) : Res ErrorKind MnemonicType :=
  match size with
  | 12 => .ok words12
  | 15 => .ok words15
  | 18 => .ok words18
  | 21 => .ok words21
  | 24 => .ok words24
  | _ => .err (.invalidWordLength size)

/-- src/bip39/mnemonic_type.rs:78-89 -/
def forKeySize (size : Nat) : Res ErrorKind MnemonicType :=
  match size with
  | 128 => .ok words12
  | 160 => .ok words15
  | 192 => .ok words18
  | 224 => .ok words21
  | 256 => .ok words24
  | _ => .err (.invalidKeysize size)

/-- src/bip39/mnemonic_type.rs:112-116 -/
def forPhrase (phrase : Str) : Res ErrorKind MnemonicType :=
  forWordCount (splitChar ' ' phrase).length

/-- src/bip39/mnemonic_type.rs:148-150 -/
def entropyBits (t : MnemonicType) : Nat := t.discr >>> ENTROPY_OFFSET

/-- src/bip39/mnemonic_type.rs:165-167: `(*self as usize) as u8` -/
def checksumBits (t : MnemonicType) : Nat := t.discr % 256

/-- src/bip39/mnemonic_type.rs:131-133 -/
def totalBits (t : MnemonicType) : Nat := t.entropyBits + t.checksumBits

/-- src/bip39/mnemonic_type.rs:180-182 -/
def wordCount (t : MnemonicType) : Nat := t.totalBits / 11

/-- src/bip39/mnemonic_type.rs:185-189 -/
def default : MnemonicType := words12

/-- src/bip39/mnemonic_type.rs:191-200 `Display` -/
def display (t : MnemonicType) : Str :=
  decimal t.wordCount ++ " words (".toList ++ decimal t.entropyBits ++ "bits)".toList

end MnemonicType
end Kms.Bip39
