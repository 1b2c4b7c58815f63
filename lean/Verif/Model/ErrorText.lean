import Verif.Model.MnemonicType
import Verif.Model.Text
/-
`Display` of src/bip39/error.rs; that of src/bip32/error.rs is `Bip32.Error.display` in ChildNumber.lean.
-/
namespace Kms

/-- src/bip39/mnemonic_type.rs:32 `derive(Debug)`: the name of the variant. -/
def Bip39.MnemonicType.debug : Bip39.MnemonicType → Str
  | .words12 => "Words12".toList
  | .words15 => "Words15".toList
  | .words18 => "Words18".toList
  | .words21 => "Words21".toList
  | .words24 => "Words24".toList

/-- src/bip39/error.rs:5-16 `Display`, generated by thiserror from the `#[error]` attributes. -/
def Bip39.ErrorKind.display : Bip39.ErrorKind → Str
  | .invalidChecksum => "invalid checksum".toList
  | .invalidWord => "invalid word in phrase".toList
  | .invalidKeysize n => "invalid keysize: ".toList ++ decimal n
  | .invalidWordLength n => "invalid number of words in phrase: ".toList ++ decimal n
  | .invalidEntropyLength n t =>
    "invalid entropy length ".toList ++ decimal n ++ "bits for mnemonic type ".toList ++ t.debug

end Kms
