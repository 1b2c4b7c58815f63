import Verif.Spec.AllLanguages
import Verif.Spec.Threads
/-
Which word lists and word maps a call is to build, if they are not there yet.
-/
namespace Kms.Spec.Threads
open Bip39 Bip39.All Bip39.Threads

/-- The word list and the word map of a language. -/
def mapAndList (l : Lang) (d : Cell) : Prop := d = .map l ∨ d = .list l

/-- `d` is a list or map that the call needs.  A map takes its list; making a mnemonic from entropy takes the list, reading one
takes the map; entropy of a size that is refused takes neither; finding the language of a phrase takes nothing if the phrase is
blank, and the Chinese map only if its first word is not English. -/
def uses : Call → Cell → Prop
  | .wordlist l, d => d = .list l
  | .wordmap l, d => mapAndList l d
  | .languageFromPhrase p, d => ∃ w ws, Spells p (w :: ws) ∧
      (mapAndList .english d ∨ (w ∉ All.words .english ∧ mapAndList .chineseSimplified d))
  | .new _ _ l, d => d = .list l
  | .fromEntropy e l, d => e.length * 8 % 2 ^ 64 ∈ [128, 160, 192, 224, 256] ∧ d = .list l
  | .fromPhrase _ l, d => mapAndList l d
  | .validate _ l, d => mapAndList l d

/-- `d` is a list or map that one of the thread's calls needs, when the thread runs alone. -/
def threadUses {α : Type} (H : Hashes) : Client α → Cell → Prop
  | .done _, _ => False
  | .call c next, d => uses c d ∨ threadUses H (next (answer H c)) d

end Kms.Spec.Threads
