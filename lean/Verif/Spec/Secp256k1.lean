import Verif.Proofs.Primes
import Mathlib.AlgebraicGeometry.EllipticCurve.Affine.Point
/-
The curve secp256k1 (SEC 2, section 2.4.1), as an elliptic curve of Mathlib: y^2 = x^3 + 7 over the field with
p = 2^256 - 2^32 - 977 elements, with Mathlib's group law on its points.
-/
namespace Kms.Spec.Secp

/-- The field size. -/
def p : Nat := 2 ^ 256 - 2 ^ 32 - 977

/-- The order of the group generated by `G`. -/
def n : Nat := 0xFFFFFFFFFFFFFFFFFFFFFFFFFFFFFFFEBAAEDCE6AF48A03BBFD25E8CD0364141

theorem p_prime : Nat.Prime p := by
  have : p = 115792089237316195423570985008687907853269984665640564039457584007908834671663 := by decide
  rw [this]
  exact Kms.Secp.prime_p

theorem n_prime : Nat.Prime n := by
  have : n = 115792089237316195423570985008687907852837564279074904382605163141518161494337 := by decide
  rw [this]
  exact Kms.Secp.prime_n

instance : Fact p.Prime := ⟨p_prime⟩

/-- The field. -/
abbrev F := ZMod p

/-- The curve y^2 = x^3 + 7. -/
def E : WeierstrassCurve.Affine F := ⟨0, 0, 0, 0, 7⟩

/-- Its points (with the point at infinity 0) form a commutative group. -/
abbrev Point := E.Point

theorem equation_iff (x y : F) : E.Equation x y ↔ y ^ 2 = x ^ 3 + 7 := by
  rw [WeierstrassCurve.Affine.equation_iff]
  simp [E]

/-- A number below p that is not 0 is not 0 in the field. -/
theorem cast_ne_zero {a : Nat} (h0 : 0 < a) (h : a < p) : (a : F) ≠ 0 := by
  intro h'
  rw [ZMod.natCast_eq_zero_iff] at h'
  exact absurd (Nat.le_of_dvd h0 h') (Nat.not_le.2 h)

/-- Every solution of the equation is a point: the curve has no singular point. -/
theorem nonsingular_iff (x y : F) : E.Nonsingular x y ↔ y ^ 2 = x ^ 3 + 7 := by
  rw [← equation_iff]
  refine (WeierstrassCurve.Affine.equation_iff_nonsingular_of_Δ_ne_zero ?_).symm
  have h : E.Δ = -((21168 : Nat) : F) := by
    simp only [WeierstrassCurve.Δ, WeierstrassCurve.b₂, WeierstrassCurve.b₄, WeierstrassCurve.b₆, WeierstrassCurve.b₈, E]
    push_cast
    ring
  rw [h, neg_ne_zero]
  exact cast_ne_zero (by norm_num) (by decide)

/-- The generator. -/
def gx : Nat := 0x79BE667EF9DCBBAC55A06295CE870B07029BFCDB2DCE28D959F2815B16F81798
def gy : Nat := 0x483ADA7726A3C4655DA4FBFC0E1108A8FD17B448A68554199C47D08FFB10D4B8

theorem G_on : E.Nonsingular (gx : F) (gy : F) := by
  rw [nonsingular_iff]
  have h : ((gy ^ 2 : Nat) : F) = ((gx ^ 3 + 7 : Nat) : F) := by
    rw [ZMod.natCast_eq_natCast_iff]
    decide +kernel
  push_cast at h
  exact h

/-- The generator. -/
def G : Point := .some (gx : F) (gy : F) G_on

/-- The point has the affine coordinates `x` and `y` (numbers below p). -/
def HasCoords : Point → Nat → Nat → Prop
  | .zero, _, _ => False
  | .some a b _, x, y => a.val = x ∧ b.val = y

end Kms.Spec.Secp
