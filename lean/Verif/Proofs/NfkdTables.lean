import Verif.Model.Nfkd
import Verif.Proofs.Language
/-
Facts about the normalisation tables, each checked over a whole table by the kernel.
-/
namespace Kms
open Bip39 (isLowerLatin isHan)

/-! ### the tables -/

/-- the set of keys as a bit set -/
def keyBits (l : List (Nat × List Nat)) : Nat := l.foldl (fun s p => s ||| 2 ^ p.1) 0

theorem keyBits_spec (l : List (Nat × List Nat)) (s n : Nat) :
    (l.foldl (fun s p => s ||| 2 ^ p.1) s).testBit n = true ↔ s.testBit n = true ∨ n ∈ l.map Prod.fst := by
  induction l generalizing s with
  | nil => simp
  | cons p r ih =>
    simp only [List.foldl_cons, List.map_cons, List.mem_cons]
    rw [ih]
    simp only [Nat.testBit_or, Nat.testBit_two_pow, Bool.or_eq_true, decide_eq_true_eq]
    constructor
    · rintro ((h | h) | h)
      · exact .inl h
      · exact .inr (.inl h.symm)
      · exact .inr (.inr h)
    · rintro (h | h | h)
      · exact .inl (.inl h)
      · exact .inl (.inr h.symm)
      · exact .inr h

/-- a scalar value that occurs in no list word and is not white space -/
def alien (n : Nat) : Bool :=
  !(97 ≤ n && n ≤ 122) && !(0x4E00 ≤ n && n ≤ 0x9F99) && !isWhitespace (Char.ofNat n)

/-- what is checked of one entry, given the set of keys -/
def entryOk (keys : Nat) (p : Nat × List Nat) : Bool :=
  0x80 ≤ p.1 && !(0x4E00 ≤ p.1 && p.1 ≤ 0x9F99) && !(0x1100 ≤ p.1 && p.1 ≤ 0x11FF) && !p.2.isEmpty &&
  p.2.all (fun d => !keys.testBit d && !(0xAC00 ≤ d && d < 0xAC00 + 11172) && Nat.blt d 0x110000 &&
    !(0xD800 ≤ d && d < 0xE000)) &&
  (if isWhitespace (Char.ofNat p.1) then p.2 == [0x20]
   else p.2.all (fun d => !isWhitespace (Char.ofNat d)) ||
     (p.2.any alien && p.2.all (fun d => !isWhitespace (Char.ofNat d) || d == 0x20)))

theorem decompositions_ok :
    (Data.decompositions.all (entryOk (keyBits Data.decompositions))) = true := by decide +kernel

/-- no class for ASCII, white space or the ideographs of the Chinese list -/
def classOk (p : Nat × Nat) : Bool :=
  0x80 ≤ p.1 && !(0x4E00 ≤ p.1 && p.1 ≤ 0x9F99) && !isWhitespace (Char.ofNat p.1) && p.2 != 0 &&
  !(0xAC00 ≤ p.1 && p.1 < 0xAC00 + 11172)

theorem combiningClasses_ok : Data.combiningClasses.all classOk = true := by decide +kernel

end Kms
