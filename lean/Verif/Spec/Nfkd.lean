import Mathlib.Logic.Relation
/-
Unicode normalization form KD, as chapter 3.11 of the Unicode Standard words it: decompose every character, then
exchange neighbouring characters that are out of order until none are.
-/
namespace Kms.Spec.Nfkd

/-- D108, D109: characters `a`, `b` next to each other with ccc(a) > ccc(b) > 0 are exchanged. -/
inductive Exchange (ccc : Char → Nat) : List Char → List Char → Prop
  | mk (u v : List Char) (a b : Char) : ccc b < ccc a → 0 < ccc b → Exchange ccc (u ++ a :: b :: v) (u ++ b :: a :: v)

/-- `t` is a form of `s` in which no exchange is left to do. -/
def Ordered (ccc : Char → Nat) (s t : List Char) : Prop :=
  Relation.ReflTransGen (Exchange ccc) s t ∧ ∀ t', ¬ Exchange ccc t t'

/-- D112 (3.12): the syllable with leading consonant `l`, vowel `v` and trailing consonant `t` (0: none). -/
def syllable (l v t : Nat) : Char := Char.ofNat (0xAC00 + (l * 21 + v) * 28 + t)

/-- Its decomposition. -/
def jamo (l v t : Nat) : List Char :=
  [Char.ofNat (0x1100 + l), Char.ofNat (0x1161 + v)] ++ if t = 0 then [] else [Char.ofNat (0x11A7 + t)]

end Kms.Spec.Nfkd
