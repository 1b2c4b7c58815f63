import Verif.Model.Mnemonic
import Verif.Spec.Bip39
import Verif.Spec.Unicode
/-
Vocabulary of the mnemonic properties: which words a language has, which mnemonics an API user can hold, and which
words a string holds.
-/
namespace Kms.Spec
open Bip39

/-- The lines of the language's word file. -/
def words : Language → List Str
  | .english => Data.english
  | .chineseSimplified => Data.chineseSimplified

/-- SHA-256 as a function on byte strings. -/
def sha (H : Hashes) : Bytes → Bytes := fun b => (H.sha256 b).1

/-- The mnemonics an API user can get hold of: the struct's fields are private and these are its constructors
(`Clone` copies).  Slices of 2^61 bytes and more, for which `len * 8` wraps around, exist on no machine. -/
inductive Constructible (H : Hashes) : Mnemonic → Prop
  | new (rng : (n : Nat) → ByteArr n) (t : MnemonicType) (l : Language) (m : Mnemonic) :
      Mnemonic.new H rng t l = .ok m → Constructible H m
  | fromEntropy (e : Bytes) (l : Language) (m : Mnemonic) : e.length < 2 ^ 61 →
      Mnemonic.fromEntropy H e l = .ok m → Constructible H m
  | fromPhrase (p : Str) (l : Language) (m : Mnemonic) :
      Mnemonic.fromPhrase H p l = .ok m → Constructible H m

/-- `ws` are the parts of `s` between its spaces (empty parts included). -/
def Pieces (s : Str) (ws : List Str) : Prop := ws ≠ [] ∧ spaced ws = s ∧ ∀ w ∈ ws, ' ' ∉ w

/-- `ws` are the NFKD forms of the white-space separated pieces of `s`. -/
def NormalWords (s : Str) (ws : List Str) : Prop := ∃ raw, Spells s raw ∧ List.Forall₂ IsNfkd raw ws

end Kms.Spec
