import Verif.Spec.Chance
/-
Any number of independent uniform strings.
-/
namespace Kms.Spec
open scoped ENNReal

/-- The `m` strings `f a` of `n` bytes each are uniformly distributed and independent: every choice of values for all of them
has the same probability. -/
def UniformFamily {α : Type} {m : Nat} (P : PMF α) (n : Nat) (f : Fin m → α → List UInt8) : Prop :=
  ∀ b : Fin m → List UInt8, (∀ a, (b a).length = n) →
    chance P (fun x => ∀ a, f a x = b a) = ((2 ^ (8 * n) : ℝ≥0∞)⁻¹) ^ m

end Kms.Spec
