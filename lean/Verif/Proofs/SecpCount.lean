import Verif.Proofs.SecpKeys
import Mathlib.GroupTheory.OrderOfElement
import Mathlib.GroupTheory.Perm.Cycle.Type
/-
The curve has exactly n points, so every point is a multiple of the generator.  No point count is computed: there are
at most 2 p + 1 points (each x has at most two y), n divides the count, and no point has order 2.
-/
namespace Kms.Secp
open Kms.Spec.Secp (E F Point)

/-- The compressed form of a point, as an injection into a set of 2 p + 1 elements. -/
def compress : Point → Option (F × Bool)
  | .zero => none
  | .some x y _ => some (x, y.val % 2 == 1)

theorem val_lt (y : F) : y.val < p := by rw [p_eq]; exact ZMod.val_lt y

theorem neg_parity {y : F} (h : y ≠ 0) : ((-y).val % 2 == 1) = !(y.val % 2 == 1) := by
  have h1 : (-y).val = p - y.val := by
    rw [p_eq, ZMod.neg_val, if_neg h]
  have h2 : y.val ≠ 0 := fun e => h ((ZMod.val_eq_zero y).1 e)
  have h3 := val_lt y
  have h4 := p_odd
  rw [h1, Bool.eq_iff_iff, Bool.not_eq_true', beq_iff_eq, beq_eq_false_iff_ne]
  omega

theorem y_unique {x y1 y2 : F} (h1 : y1 ^ 2 = x ^ 3 + 7) (h2 : y2 ^ 2 = x ^ 3 + 7)
    (h : (y1.val % 2 == 1) = (y2.val % 2 == 1)) : y1 = y2 := by
  rcases sq_eq_sq_iff_eq_or_eq_neg.1 (h1.trans h2.symm) with h3 | h3
  · exact h3
  · rw [h3, neg_parity (y_ne_zero h2)] at h
    cases hb : (y2.val % 2 == 1) <;> rw [hb] at h <;> simp at h

theorem compress_inj : Function.Injective compress := by
  intro P Q h
  match P, Q with
  | .zero, .zero => rfl
  | .zero, .some x y h' => simp [compress] at h
  | .some x y h', .zero => simp [compress] at h
  | .some x1 y1 h1, .some x2 y2 h2 =>
    simp only [compress, Option.some.injEq, Prod.mk.injEq] at h
    obtain ⟨rfl, h⟩ := h
    have := y_unique ((Spec.Secp.nonsingular_iff _ _).1 h1) ((Spec.Secp.nonsingular_iff _ _).1 h2) h
    subst this
    rfl

instance : Finite Point := Finite.of_injective compress compress_inj

theorem card_le : Nat.card Point ≤ 2 * p + 1 := by
  have h := Nat.card_le_card_of_injective compress compress_inj
  have h2 : Nat.card (Option (F × Bool)) = 2 * p + 1 := by
    rw [Finite.card_option, Nat.card_prod, Nat.card_zmod, ← p_eq, Nat.card_eq_fintype_card (α := Bool), Fintype.card_bool,
      Nat.mul_comm]
  rwa [h2] at h

theorem n_dvd_card : n ∣ Nat.card Point := by
  rw [n_eq, ← addOrderOf_G]
  exact addOrderOf_dvd_natCard _

theorem no_order_two (Q : Point) (h : Q + Q = 0) : Q = 0 := by
  match Q with
  | .zero => rfl
  | .some x y hQ =>
    exfalso
    have h1 := (Spec.Secp.nonsingular_iff _ _).1 hQ
    by_cases hy : y = E.negY x y
    · rw [negY_eq] at hy
      have hy0 := y_ne_zero h1
      have h2 := neg_parity hy0
      rw [← hy] at h2
      cases hb : (y.val % 2 == 1) <;> rw [hb] at h2 <;> simp at h2
    · rw [WeierstrassCurve.Affine.Point.add_self_of_Y_ne hy] at h
      exact WeierstrassCurve.Affine.Point.some_ne_zero _ h

theorem card_odd : ¬ 2 ∣ Nat.card Point := by
  intro h
  haveI : Fact (Nat.Prime 2) := ⟨Nat.prime_two⟩
  obtain ⟨Q, hQ⟩ := exists_prime_addOrderOf_dvd_card' (G := Point) 2 h
  have h1 : Q + Q = 0 := by rw [← two_nsmul, ← hQ, addOrderOf_nsmul_eq_zero]
  rw [no_order_two Q h1, addOrderOf_zero] at hQ
  exact absurd hQ (by decide)

/-- The curve has n points. -/
theorem card_point : Nat.card Point = n := by
  obtain ⟨c, hc⟩ := n_dvd_card
  have h1 := card_le
  have h2 := card_odd
  rw [hc] at h1 h2 ⊢
  have h3 : 2 * p + 1 < n * 3 := by decide
  have hn : 0 < n := by decide
  have h4 : c < 3 := by
    by_contra h
    have := Nat.mul_le_mul_left n (Nat.le_of_not_lt h)
    omega
  have h0 : 0 < Nat.card Point := Nat.card_pos
  rw [hc] at h0
  match c, h4 with
  | 0, _ => simp at h0
  | 1, _ => simp
  | 2, _ => exact absurd (Dvd.intro_left n rfl) h2

/-- Every point is a multiple of the generator. -/
theorem exists_log (Q : Point) : ∃ k, k < n ∧ Q = k • Spec.Secp.G := by
  have hc : Nat.card (AddSubgroup.zmultiples Spec.Secp.G) = Nat.card Point := by
    rw [Nat.card_zmultiples, addOrderOf_G, card_point, n_eq]
  have ht := AddSubgroup.eq_top_of_card_eq _ hc
  have hm : Q ∈ AddSubgroup.zmultiples Spec.Secp.G := by rw [ht]; trivial
  rw [mem_zmultiples_iff_mem_range_addOrderOf, Finset.mem_image] at hm
  obtain ⟨k, hk, rfl⟩ := hm
  rw [Finset.mem_range, addOrderOf_G, ← n_eq] at hk
  exact ⟨k, hk, rfl⟩

/-- Every public key is the public key of exactly one secret key. -/
theorem exists_secret {P : PublicKey} (h : P.Valid) : ∃ s, PublicKey.fromSecretKey s = P := by
  obtain ⟨k, hk, hQ⟩ := exists_log (P.point h)
  have h0 : 0 < k := by
    rcases Nat.eq_zero_or_pos k with h' | h'
    · rw [h', zero_nsmul] at hQ
      exact absurd hQ (WeierstrassCurve.Affine.Point.some_ne_zero _)
    · exact h'
  refine ⟨⟨k, h0, hk⟩, ?_⟩
  obtain ⟨v, hv⟩ := PublicKey.rep_iff.1 (fromSecretKey_rep ⟨k, h0, hk⟩)
  exact PublicKey.point_inj v h (hv.trans hQ.symm)

end Kms.Secp
