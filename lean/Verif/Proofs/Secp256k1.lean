import Verif.Spec.Secp256k1
import Verif.Proofs.SecpOrder
import Mathlib.FieldTheory.Finite.Basic
import Mathlib.Tactic.Ring
import Mathlib.Tactic.LinearCombination
/-
The arithmetic of Model/Secp256k1.lean computes in Mathlib's group of points.
-/
namespace Kms.Secp
open Kms.Spec.Secp (E F Point)

theorem p_eq : p = Spec.Secp.p := by decide
theorem n_eq : n = Spec.Secp.n := rfl
theorem n_lt : n < 2 ^ 256 := by decide
theorem p_lt : p < 2 ^ 256 := by decide
theorem p_pos : 0 < p := by decide

theorem addM_lt (a b) : addM a b < p := Nat.mod_lt _ p_pos
theorem subM_lt (a b) : subM a b < p := Nat.mod_lt _ p_pos
theorem mulM_lt (a b) : mulM a b < p := Nat.mod_lt _ p_pos

theorem cast_mod (a : Nat) : ((a % p : Nat) : F) = a := by
  rw [p_eq]; simp

theorem cast_p : ((p : Nat) : F) = 0 := by rw [p_eq]; simp

theorem cast_addM (a b : Nat) : ((addM a b : Nat) : F) = a + b := by
  rw [addM, cast_mod]; push_cast; rfl

theorem cast_mulM (a b : Nat) : ((mulM a b : Nat) : F) = a * b := by
  rw [mulM, cast_mod]; push_cast; rfl

theorem cast_subM (a : Nat) {b : Nat} (h : b ≤ p) : ((subM a b : Nat) : F) = a - b := by
  rw [subM, cast_mod, Nat.cast_add, Nat.cast_sub h, cast_p]; ring

theorem cast_inj {a b : Nat} (ha : a < p) (hb : b < p) : (a : F) = b ↔ a = b := by
  rw [p_eq] at ha hb
  rw [ZMod.natCast_eq_natCast_iff]
  exact ⟨fun h => Nat.ModEq.eq_of_lt_of_lt h ha hb, fun h => h ▸ rfl⟩

theorem cast_eq_zero {a : Nat} (ha : a < p) : (a : F) = 0 ↔ a = 0 := by
  have := cast_inj ha p_pos
  simpa using this

theorem powMod_cast (a e : Nat) (he : e < 2 ^ 256) : ((powMod 256 a e p : Nat) : F) = (a : F) ^ e := by
  rw [powMod_eq _ _ _ _ he, cast_mod]; push_cast; rfl

theorem powMod_lt (a e : Nat) (he : e < 2 ^ 256) : powMod 256 a e p < p := by
  rw [powMod_eq _ _ _ _ he]; exact Nat.mod_lt _ p_pos

theorem cast_invM (a : Nat) : ((invM a : Nat) : F) = (a : F)⁻¹ := by
  rw [invM, powMod_cast _ _ (by decide)]
  by_cases h : (a : F) = 0
  · rw [h, inv_zero, zero_pow]; decide
  · refine eq_inv_of_mul_eq_one_left ?_
    rw [← pow_succ]
    have : p - 2 + 1 = Spec.Secp.p - 1 := by decide
    rw [this]
    exact ZMod.pow_card_sub_one_eq_one h

/-- The pair of coordinates (or infinity) `P` of the model represents the point `Q`. -/
inductive Rep : Pt → Point → Prop
  | inf : Rep none 0
  | aff {x y : Nat} (hx : x < p) (hy : y < p) (h : E.Nonsingular (x : F) (y : F)) : Rep (some (x, y)) (.some _ _ h)

theorem Rep_none {Q : Point} : Rep none Q ↔ Q = 0 :=
  ⟨fun h => by cases h; rfl, fun h => h ▸ .inf⟩

theorem Rep_some {x y : Nat} {Q : Point} :
    Rep (some (x, y)) Q ↔ x < p ∧ y < p ∧ ∃ h, Q = .some (x : F) (y : F) h := by
  constructor
  · intro h
    cases h with
    | aff hx hy h => exact ⟨hx, hy, h, rfl⟩
  · rintro ⟨hx, hy, h, rfl⟩
    exact .aff hx hy h

theorem Rep.unique {P : Pt} {Q R : Point} (h1 : Rep P Q) (h2 : Rep P R) : Q = R := by
  match P with
  | none => rw [Rep_none.1 h1, Rep_none.1 h2]
  | some (x, y) =>
    obtain ⟨_, _, _, rfl⟩ := Rep_some.1 h1
    obtain ⟨_, _, _, rfl⟩ := Rep_some.1 h2
    rfl

theorem Rep.inj {P R : Pt} {Q : Point} (h1 : Rep P Q) (h2 : Rep R Q) : P = R := by
  match P, R with
  | none, none => rfl
  | none, some (x, y) => obtain ⟨_, _, _, h⟩ := Rep_some.1 h2; rw [Rep_none.1 h1] at h; cases h
  | some (x, y), none => obtain ⟨_, _, _, h⟩ := Rep_some.1 h1; rw [Rep_none.1 h2] at h; cases h
  | some (x, y), some (x', y') =>
    obtain ⟨hx, hy, _, rfl⟩ := Rep_some.1 h1
    obtain ⟨hx', hy', _, h⟩ := Rep_some.1 h2
    injection h with h1 h2
    rw [(cast_inj hx hx').1 h1, (cast_inj hy hy').1 h2]

theorem negY_eq (x y : F) : E.negY x y = -y := by simp [WeierstrassCurve.Affine.negY, E]

theorem chord_rep {l x1 y1 x2 y2 : Nat} (hx1 : x1 < p) (hy1 : y1 < p) (hx2 : x2 < p)
    {h1 : E.Nonsingular (x1 : F) (y1 : F)} {h2 : E.Nonsingular (x2 : F) (y2 : F)}
    (hne : ¬ ((x1 : F) = x2 ∧ (y1 : F) = E.negY (x2 : F) (y2 : F)))
    (hl : (l : F) = E.slope (x1 : F) (x2 : F) (y1 : F) (y2 : F)) :
    Rep (chord l x1 y1 x2) (.some _ _ h1 + .some _ _ h2) := by
  rw [WeierstrassCurve.Affine.Point.add_some hne]
  refine Rep_some.2 ⟨subM_lt _ _, subM_lt _ _, ?_⟩
  have hx : ((subM (subM (mulM l l) x1) x2 : Nat) : F) = E.addX (x1 : F) (x2 : F) (l : F) := by
    rw [cast_subM _ hx2.le, cast_subM _ hx1.le, cast_mulM]
    simp only [WeierstrassCurve.Affine.addX, E]; ring
  have hy : ((subM (mulM l (subM x1 (subM (subM (mulM l l) x1) x2))) y1 : Nat) : F) =
      E.addY (x1 : F) (x2 : F) (y1 : F) (l : F) := by
    rw [cast_subM _ hy1.le, cast_mulM, cast_subM _ (subM_lt _ _).le, hx]
    simp only [WeierstrassCurve.Affine.addY, negY_eq, WeierstrassCurve.Affine.negAddY]; ring
  rw [hl] at hx hy
  simp only [hx, hy]
  exact ⟨WeierstrassCurve.Affine.nonsingular_add h1 h2 hne, trivial⟩

theorem add_rep {P R : Pt} {Q S : Point} (hP : Rep P Q) (hR : Rep R S) : Rep (add P R) (Q + S) := by
  match P, R with
  | none, R => rw [Rep_none.1 hP, zero_add]; exact hR
  | some (x, y), none => rw [Rep_none.1 hR, add_zero]; exact hP
  | some (x1, y1), some (x2, y2) =>
    obtain ⟨hx1, hy1, h1, rfl⟩ := Rep_some.1 hP
    obtain ⟨hx2, hy2, h2, rfl⟩ := Rep_some.1 hR
    simp only [add]
    split
    · rename_i hx
      subst hx
      have hz : addM y1 y2 = 0 ↔ (y1 : F) = E.negY (x1 : F) (y2 : F) := by
        rw [negY_eq, ← cast_eq_zero (addM_lt _ _), cast_addM, add_eq_zero_iff_eq_neg]
      split
      · rename_i hy
        rw [WeierstrassCurve.Affine.Point.add_of_Y_eq rfl (hz.1 hy)]
        exact .inf
      · rename_i hy
        have hy' := fun h => hy (hz.2 h)
        refine chord_rep hx1 hy1 hx2 (fun h => hy' h.2) ?_
        rw [WeierstrassCurve.Affine.slope_of_Y_ne rfl hy', cast_mulM, cast_mulM, cast_mulM, cast_invM, cast_addM]
        rw [negY_eq, div_eq_mul_inv]
        simp only [E]
        push_cast
        ring
    · rename_i hx
      have hx' : (x1 : F) ≠ x2 := fun h => hx ((cast_inj hx1 hx2).1 h)
      refine chord_rep hx1 hy1 hx2 (fun h => hx' h.1) ?_
      rw [WeierstrassCurve.Affine.slope_of_X_ne hx', cast_mulM, cast_invM, cast_subM _ hy2.le, cast_subM _ hx2.le,
        div_eq_mul_inv]

theorem mul_rep {fuel k : Nat} {P : Pt} {Q : Point} (hk : k < 2 ^ fuel) (hP : Rep P Q) :
    Rep (mul fuel k P) (k • Q) := by
  induction fuel generalizing k P Q with
  | zero =>
    have : k = 0 := by simpa using hk
    subst this
    rw [zero_nsmul]
    exact .inf
  | succ f ih =>
    simp only [mul]
    split
    · rename_i h; subst h; rw [zero_nsmul]; exact .inf
    · have hk2 : k / 2 < 2 ^ f := by rw [Nat.pow_succ] at hk; omega
      have h := ih hk2 (add_rep hP hP)
      have e : (k / 2) • (Q + Q) = (2 * (k / 2)) • Q := by rw [← two_nsmul, smul_smul, Nat.mul_comm]
      rw [e] at h
      split
      · have : k • Q = Q + (2 * (k / 2)) • Q := by
          have e2 : k = 1 + 2 * (k / 2) := by omega
          conv_lhs => rw [e2, add_nsmul, one_nsmul]
        rw [this]
        exact add_rep hP h
      · have : 2 * (k / 2) = k := by omega
        rwa [this] at h

theorem G_rep : Rep G Spec.Secp.G := .aff (by decide) (by decide) Spec.Secp.G_on

theorem mul_G_rep {k : Nat} (hk : k < 2 ^ 256) : Rep (mul 256 k G) (k • Spec.Secp.G) := mul_rep hk G_rep

theorem n_smul_G : Spec.Secp.n • Spec.Secp.G = 0 := by
  have h : Rep (mul 256 n G) (n • Spec.Secp.G) := mul_G_rep n_lt
  rw [order_check, Rep_none, n_eq] at h
  exact h

theorem G_ne_zero : Spec.Secp.G ≠ 0 := WeierstrassCurve.Affine.Point.some_ne_zero _

theorem addOrderOf_G : addOrderOf Spec.Secp.G = Spec.Secp.n := by
  haveI : Fact Spec.Secp.n.Prime := ⟨Spec.Secp.n_prime⟩
  exact addOrderOf_eq_prime n_smul_G G_ne_zero

theorem smul_G_eq_zero {k : Nat} : k • Spec.Secp.G = 0 ↔ Spec.Secp.n ∣ k := by
  rw [← addOrderOf_G, addOrderOf_dvd_iff_nsmul_eq_zero]

theorem smul_G_inj {a b : Nat} : a • Spec.Secp.G = b • Spec.Secp.G ↔ a % n = b % n := by
  rw [n_eq, ← addOrderOf_G]
  exact nsmul_inj_mod

end Kms.Secp
