import Verif.Spec.AllLanguages
import Verif.Proofs.Search
/-
No word occurs twice in a word list, checked by the kernel.
-/
namespace Kms.Bip39.All
open Language
-- one check at a time, to bound the memory
set_option Elab.async false


/-! ### no repeats -/

/-- A number for a word; words with different numbers are different. -/
def hashWord (M : Nat) (w : Str) : Nat := w.foldl (fun r c => (r * 257 + c.toNat) % M) 0

theorem nodup_of_hash (M : Nat) {l : List Str} (h : distinctBits 0 (l.map (hashWord M)) = true) : l.Nodup :=
  Nodup.of_map' _ (distinctBits_sound _ _ h).1

theorem traditional_nodup : Data.chineseTraditional.Nodup := nodup_of_hash 200003 (by decide +kernel)
theorem french_nodup : Data.french.Nodup := nodup_of_hash 600031 (by decide +kernel)
theorem italian_nodup : Data.italian.Nodup := nodup_of_hash 600099 (by decide +kernel)
theorem japanese_nodup : Data.japanese.Nodup := nodup_of_hash 600043 (by decide +kernel)
theorem korean_nodup : Data.korean.Nodup := nodup_of_hash 600017 (by decide +kernel)
theorem spanish_nodup : Data.spanish.Nodup := nodup_of_hash 201051 (by decide +kernel)

theorem english_italian : (Data.english ++ Data.italian).Nodup := nodup_of_hash 1020047 (by decide +kernel)
theorem english_spanish : (Data.english ++ Data.spanish).Nodup := nodup_of_hash 1008331 (by decide +kernel)

end Kms.Bip39.All
