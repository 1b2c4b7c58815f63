import Verif.Model.Threads
/-
What calls return when nothing else is going on.
-/
namespace Kms.Spec.Threads
open Bip39 Bip39.All Bip39.Threads

/-- The answer to a call made alone. -/
def answer (H : Hashes) : (c : Call) → c.Out
  | .wordlist l => l.wordlist
  | .wordmap l => l.wordmap
  | .languageFromPhrase p => Lang.fromPhrase p
  | .new rng t l => Mnemonic.new H rng t l
  | .fromEntropy e l => Mnemonic.fromEntropy H e l
  | .fromPhrase p l => Mnemonic.fromPhrase H p l
  | .validate p l => Mnemonic.validate H p l

/-- The result of a thread that gets these answers. -/
def alone {α : Type} (H : Hashes) : Client α → α
  | .done a => a
  | .call c next => alone H (next (answer H c))

/-- How many calls it makes then. -/
def calls {α : Type} (H : Hashes) : Client α → Nat
  | .done _ => 0
  | .call c next => calls H (next (answer H c)) + 1

end Kms.Spec.Threads
