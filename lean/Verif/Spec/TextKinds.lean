import Verif.Model.AllLanguages
import Verif.Model.Keys
/-
The kinds of text that the library reads.
-/
namespace Kms.Spec
open Kms.Bip39 Kms.Bip32

/-- What a text can be given to the library as. -/
inductive TextKind
  | phrase
  | extendedKey
  | childNumber
  | derivationPath
  | languageCode
  deriving DecidableEq

/-- A function of the library accepts the text as one of this kind: `Mnemonic::from_phrase` or `validate` in one of the eight
languages; the text of an `ExtendedKey`, `XPrv` or `XPub`; of a `ChildNumber`; of a `DerivationPath`; a language code of a build
with some of the languages. -/
def AcceptedAs (H : Hashes) (s : Str) : TextKind → Prop
  | .phrase => ∃ l, (∃ m, All.Mnemonic.fromPhrase H s l = .ok m) ∨ All.Mnemonic.validate H s l = .ok ()
  | .extendedKey => (∃ k, ExtendedKey.fromStr H s = .ok k) ∨ (∃ k, XPrv.fromStr H s = .ok k) ∨ ∃ k, XPub.fromStr H s = .ok k
  | .childNumber => ∃ c, ChildNumber.fromStr s = .ok c
  | .derivationPath => ∃ p, DerivationPath.fromStr s = .ok p
  | .languageCode => ∃ F l, All.Lang.fromLanguageCode F s = some l

end Kms.Spec
