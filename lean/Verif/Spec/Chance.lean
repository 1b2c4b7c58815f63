import Mathlib.Probability.ProbabilityMassFunction.Constructions
/-
Probabilities, for the properties about random input.
-/
namespace Kms.Spec
open scoped ENNReal

/-- The probability of the event `A`. -/
noncomputable def chance {α : Type} (P : PMF α) (A : α → Prop) : ℝ≥0∞ := P.toOuterMeasure {a | A a}

/-- The mean of the number `f`. -/
noncomputable def mean {α : Type} (P : PMF α) (f : α → Nat) : ℝ≥0∞ := ∑' a, P a * f a

/-- The `n` bytes `f` are uniformly distributed: every string of `n` bytes has the same probability. -/
def UniformBytes {α : Type} (P : PMF α) (n : Nat) (f : α → List UInt8) : Prop :=
  ∀ b, b.length = n → chance P (fun a => f a = b) = (2 ^ (8 * n) : ℝ≥0∞)⁻¹

/-- The `n` bytes `f` and the `n` bytes `g` are uniformly distributed and independent: every pair of strings has the same
probability. -/
def UniformPair {α : Type} (P : PMF α) (n : Nat) (f g : α → List UInt8) : Prop :=
  ∀ b c, b.length = n → c.length = n →
    chance P (fun a => f a = b ∧ g a = c) = (2 ^ (8 * n) : ℝ≥0∞)⁻¹ * (2 ^ (8 * n) : ℝ≥0∞)⁻¹

end Kms.Spec
