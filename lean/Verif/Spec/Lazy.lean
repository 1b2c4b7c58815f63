import Verif.Spec.Mnemonic
import Verif.Model.Lazy
/-
What the threads of a program ask of the word lists, and what the answers should be.
-/
namespace Kms.Spec
open Kms.Bip39

/-- A call of `Language::wordlist` or `Language::wordmap`. -/
inductive Request where
  | wordlist (l : Language)
  | wordmap (l : Language)
  deriving DecidableEq

/-- The right answer: the 2048 words of the language in order; respectively the map that sends exactly the `b`-th word to
`b`. -/
def Answers : Request → Lazy.Val → Prop
  | .wordlist l, .list ws => ws = words l
  | .wordmap l, .map m => ∀ (w : Str) (b : BitVec 16), m w = some b ↔ (words l)[b.toNat]? = some w
  | _, _ => False

/-- The static a call dereferences. -/
def Request.cell : Request → Lazy.Cell
  | .wordlist l => Lazy.wordlistCell l
  | .wordmap l => Lazy.wordmapCell l

end Kms.Spec
