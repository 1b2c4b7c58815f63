import Verif.Proofs.AllWords
/-
Which words two lists have in common, checked by the kernel.
-/
namespace Kms.Bip39.All
open Language
-- one check at a time, to bound the memory
set_option Elab.async false

/-- Latin, kana, jamo or Chinese, by the first character. -/
def script : Str → Nat
  | [] => 0
  | c :: _ => if c.toNat < 0x80 then 1 else if c.toNat < 0x1200 then 2 else if c.toNat < 0x3100 then 3 else 4

/-- The script of a language's words. -/
def scriptOf : Lang → Nat
  | .english | .french | .italian | .spanish => 1
  | .korean => 2
  | .japanese => 3
  | .chineseSimplified | .chineseTraditional => 4

theorem scripts (l : Lang) : (Spec.All.words l).all (fun w => script w == scriptOf l) = true := by
  cases l <;> decide +kernel

theorem french_italian : (Data.french ++ Data.italian).Nodup := nodup_of_hash 1013255 (by decide +kernel)
theorem french_spanish : (Data.french ++ Data.spanish).Nodup := nodup_of_hash 1016635 (by decide +kernel)
theorem italian_spanish : (Data.italian ++ Data.spanish).Nodup := nodup_of_hash 1005989 (by decide +kernel)

/-- The words of the second list that are not in the same place of the first. -/
def displaced : List Str → List Str → List Str
  | a :: as, b :: bs => if a = b then displaced as bs else b :: displaced as bs
  | _, _ => []

theorem traditional_displaced : (Data.chineseSimplified ++ displaced Data.chineseSimplified Data.chineseTraditional).Nodup :=
  nodup_of_hash 400001 (by decide +kernel)

theorem english_french_displaced : displaced Data.english Data.french = Data.french := by decide +kernel

end Kms.Bip39.All
