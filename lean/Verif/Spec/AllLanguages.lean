import Verif.Model.AllLanguages
import Verif.Spec.Mnemonic
/-
Vocabulary of the properties over all eight languages of the source text.
-/
namespace Kms.Spec.All
open Bip39 Bip39.All

/-- The lines of the language's word file. -/
def words : Lang → List Str
  | .english => Data.english
  | .chineseSimplified => Data.chineseSimplified
  | .chineseTraditional => Data.chineseTraditional
  | .french => Data.french
  | .italian => Data.italian
  | .japanese => Data.japanese
  | .korean => Data.korean
  | .spanish => Data.spanish

/-- The language's code. -/
def code : Lang → Str
  | .english => "en".toList
  | .chineseSimplified => "zh-cn".toList
  | .chineseTraditional => "zh-tw".toList
  | .french => "fr".toList
  | .italian => "it".toList
  | .japanese => "ja".toList
  | .korean => "ko".toList
  | .spanish => "es".toList

/-- The languages of a build: English and simplified Chinese, and those whose feature is on. -/
inductive In (F : Features) : Lang → Prop
  | english : In F .english
  | chineseSimplified : In F .chineseSimplified
  | chineseTraditional : F.chineseTraditional = true → In F .chineseTraditional
  | french : F.french = true → In F .french
  | italian : F.italian = true → In F .italian
  | japanese : F.japanese = true → In F .japanese
  | korean : F.korean = true → In F .korean
  | spanish : F.spanish = true → In F .spanish

/-- The build of Cargo.toml, which declares none of the six features. -/
def noFeatures : Features := ⟨false, false, false, false, false, false⟩

/-- The two languages of that build. -/
def ofLanguage : Language → Lang
  | .english => .english
  | .chineseSimplified => .chineseSimplified

/-- Its mnemonics. -/
def ofMnemonic (m : Bip39.Mnemonic) : All.Mnemonic := ⟨m.phrase, ofLanguage m.lang, m.entropy⟩

/-- The mnemonics an API user can get hold of (see `Kms.Spec.Constructible`). -/
inductive Constructible (H : Hashes) : All.Mnemonic → Prop
  | new (rng : (n : Nat) → ByteArr n) (t : MnemonicType) (l : Lang) (m : All.Mnemonic) :
      Mnemonic.new H rng t l = .ok m → Constructible H m
  | fromEntropy (e : Bytes) (l : Lang) (m : All.Mnemonic) : e.length < 2 ^ 61 →
      Mnemonic.fromEntropy H e l = .ok m → Constructible H m
  | fromPhrase (p : Str) (l : Lang) (m : All.Mnemonic) :
      Mnemonic.fromPhrase H p l = .ok m → Constructible H m

/-- What `validate` and `from_phrase` report for a phrase whose pieces are `ws`. -/
def Outcome (H : Hashes) (l : Lang) (ws : List Str) : Option ErrorKind → Prop
  | some .invalidWord => ∃ w ∈ ws, w ∉ words l
  | some (.invalidWordLength n) => (∀ w ∈ ws, w ∈ words l) ∧ n = ws.length ∧ n ∉ sizes
  | some .invalidChecksum => ∃ idx, WordsAt (words l) ws idx ∧ idx.length ∈ sizes ∧ ¬ ∃ e, Encodes (sha H) idx e
  | some _ => False
  | none => ∃ idx, WordsAt (words l) ws idx ∧ idx.length ∈ sizes ∧ ∃ e, Encodes (sha H) idx e

end Kms.Spec.All
