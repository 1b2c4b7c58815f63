import Verif.Props.Malleability
import Verif.Proofs.SecpCount
/-
C132: for which keys a signature verifies.
-/
namespace Kms.Props
open Kms.Spec Kms.Spec.Bip32 Kms.Spec.Ecdsa
open Kms.Spec.Secp (Point G n p HasCoords)
open Kms.Secp (SecretKey)

theorem cast_one {a b : Nat} (h : a * b % n = 1) : (a : ZMod n) * b = 1 := by
  have : ((a * b : Nat) : ZMod n) = (1 : Nat) := cast_mod (by rw [h]; decide)
  push_cast at this
  exact this

/-- A signature verifies for a key exactly if one of the four recovery ids gives the key. -/
theorem verifies_iff_recovers (Q : Point) (m r s : Nat) :
    Verifies Q m r s ↔ 0 < r ∧ r < n ∧ 0 < s ∧ s < n ∧ ∃ v, Recovers Q m r s v := by
  obtain ⟨d, -, rfl⟩ := Secp.exists_log Q
  constructor
  · rintro ⟨h1, h2, h3, h4, w, x, y, hw, hc, hx⟩
    refine ⟨h1, h2, h3, h4, 2 * (x / n) + y % 2, ?_⟩
    rw [← mul_nsmul', ← add_nsmul] at hc
    have hxn : x < 2 * n := Nat.lt_trans (Secp.coords_lt hc).1 Secp.p_lt_two_n
    have hq : x / n < 2 := Nat.div_lt_of_lt_mul (by rw [Nat.mul_comm]; exact hxn)
    have hv2 : (2 * (x / n) + y % 2) / 2 = x / n := by omega
    refine eq_recovers h1 hc hx.symm (by omega) ?_ (by omega) ?_
    · rw [hv2]
      exact (Nat.mod_add_div x n).symm
    · have hw' := cast_one hw
      push_cast
      linear_combination (m + r * d : ZMod n) * hw'
  · rintro ⟨h1, h2, h3, h4, v, hR⟩
    obtain ⟨hv, R, x, y, w, hc, hx, hy, hw, hQ⟩ := hR
    obtain ⟨K, -, rfl⟩ := Secp.exists_log R
    refine eq_verifies h1 ⟨h3, h4⟩ hc (by rw [hx, Nat.add_mul_mod_self_left, Nat.mod_eq_of_lt h2]) ?_
    exact eq_of_recovers hc hx hy ⟨hv, _, x, y, w, hc, hx, hy, hw, hQ⟩

/-- **C132** For which keys a signature that `ecdsa_sign` returned for m verifies, r not zero. With its recovery id it is the
signer's key alone. With bit 0 of the recovery id changed it is one other point, d' G with r d' = -(r d + 2 m) modulo n, d being
the signer's private key. Without recovery id it is these two and, unless r is below p - n, no other. -/
theorem C132_which_keys (H : Hashes) (debug : Bool) (fuel : Nat) (sk : SecretKey) (msg : Bytes) (sig : ByteArr 64) (v : UInt8)
    (h : ecdsaSign H debug fuel sk msg = some (.ok (sig, v))) (hr0 : sig.1.take 32 ≠ List.replicate 32 0) :
    let m := bytesVal msg
    let r := bytesVal (sig.1.take 32)
    let s := bytesVal (sig.1.drop 32)
    (∀ Q, Recovers Q m r s v.toNat ↔ Q = sk.k • G) ∧
    ∃ d', d' < n ∧ d' • G ≠ sk.k • G ∧ (r * d' + (r * sk.k + 2 * m)) % n = 0 ∧
      (∀ Q u, u / 2 = v.toNat / 2 → u % 2 ≠ v.toNat % 2 → (Recovers Q m r s u ↔ Q = d' • G)) ∧
      Verifies (sk.k • G) m r s ∧ Verifies (d' • G) m r s ∧
      (p ≤ r + n → ∀ Q, Verifies Q m r s ↔ Q = sk.k • G ∨ Q = d' • G) := by
  obtain ⟨j, r, s, k, x, y, hj, hs, hrn, hs0, hs2, c0, c1, hk, hc, er, ev, he⟩ := sign_facts h
  obtain ⟨p1, p2⟩ := sig_parts hs hrn hs2
  simp only [p1, p2]
  have hodd : n % 2 = 1 := by decide
  have hpo : p % 2 = 1 := by decide
  have hrp : 0 < r := by
    rcases Nat.eq_zero_or_pos r with h0 | h0
    · exfalso
      apply hr0
      rw [hs, h0, List.take_left' (by simp [ser256])]
      decide
    · exact h0
  have hkn := nonce_lt c0 c1 hk
  have hsn : 0 < s ∧ s < n := ⟨hs0, by omega⟩
  have e := cast_mod he
  push_cast at e
  have hneg := Secp.coords_neg hc
  rw [← Secp.smul_neg_G hkn.2] at hneg
  have hyp : y < p := (Secp.coords_lt hc).2.1
  have en : (((Secp.n - k : Nat)) : ZMod n) = -(k : ZMod n) := by
    show ((n - k : Nat) : ZMod n) = _
    rw [Nat.cast_sub hkn.2.le]
    simp
  have hv := x_split hc ev
  have hyn : (Secp.p - y) % 2 ≠ y % 2 := by
    show (p - y) % 2 ≠ y % 2
    omega
  have hr' := castNe hrp hrn
  have hxr : x = r + n * (v.toNat / 2) := by rw [er]; exact hv.2.1
  -- the other key
  obtain ⟨d', hd'⟩ : ∃ d' : Nat, d' < n ∧ (r : ZMod n) * d' = -(r * sk.k + 2 * (bytesVal msg : Nat)) := by
    refine ⟨((-(r * sk.k + 2 * (bytesVal msg : Nat)) / r : ZMod n)).val, ZMod.val_lt _, ?_⟩
    rw [ZMod.natCast_zmod_val]
    field_simp
  have hA : ∀ Q, Recovers Q (bytesVal msg) r s v.toNat ↔ Q = sk.k • G := by
    intro Q
    obtain ⟨q, -, rfl⟩ := Secp.exists_log Q
    rw [smulG]
    constructor
    · intro hR
      have e2 := eq_of_recovers hc hxr hv.2.2 hR
      exact mul_left_cancel₀ hr' (by linear_combination e - e2)
    · intro hq
      exact eq_recovers hrp hc er hv.1 hv.2.1 hv.2.2 (by rw [hq, e])
  have hB : ∀ Q u, u / 2 = v.toNat / 2 → u % 2 ≠ v.toNat % 2 → (Recovers Q (bytesVal msg) r s u ↔ Q = d' • G) := by
    intro Q u hu hu2
    obtain ⟨q, -, rfl⟩ := Secp.exists_log Q
    rw [smulG]
    have huy : (Secp.p - y) % 2 = u % 2 := by omega
    constructor
    · intro hR
      have e2 := eq_of_recovers hneg (by rw [hu]; exact hxr) huy hR
      rw [en] at e2
      exact mul_left_cancel₀ hr' (by linear_combination -e2 - e - hd'.2)
    · intro hq
      refine eq_recovers hrp hneg er (by omega) (by rw [hu]; exact hv.2.1) huy ?_
      rw [en, hq]
      linear_combination -e - hd'.2
  obtain ⟨u, hu1, hu2⟩ : ∃ u, u / 2 = v.toNat / 2 ∧ u % 2 ≠ v.toNat % 2 :=
    ⟨2 * (v.toNat / 2) + (1 - v.toNat % 2), by omega, by omega⟩
  have hVA : Verifies (sk.k • G) (bytesVal msg) r s :=
    (verifies_iff_recovers _ _ _ _).2 ⟨hrp, hrn, hsn.1, hsn.2, _, (hA _).2 rfl⟩
  have hVB : Verifies (d' • G) (bytesVal msg) r s :=
    (verifies_iff_recovers _ _ _ _).2 ⟨hrp, hrn, hsn.1, hsn.2, _, (hB _ u hu1 hu2).2 rfl⟩
  refine ⟨hA, d', hd'.1, ?_, ?_, hB, hVA, hVB, fun hp Q => ⟨fun hQ => ?_, ?_⟩⟩
  · rw [Ne, smulG]
    intro heq
    have h2 : (2 : ZMod n) * (k * s) = 0 := by
      rw [e]
      linear_combination hd'.2 - (r : ZMod n) * heq
    have two : ((2 : Nat) : ZMod n) ≠ 0 := castNe (by decide) (by decide)
    rcases mul_eq_zero.1 h2 with h3 | h3
    · exact two (by exact_mod_cast h3)
    · rcases mul_eq_zero.1 h3 with h4 | h4
      · exact castNe hkn.1 hkn.2 h4
      · exact castNe hsn.1 hsn.2 h4
  · refine Nat.mod_eq_zero_of_dvd ((ZMod.natCast_eq_zero_iff _ n).1 ?_)
    push_cast
    linear_combination hd'.2
  · obtain ⟨_, _, _, _, w, hR⟩ := (verifies_iff_recovers _ _ _ _).1 hQ
    have hsmall : ∀ a, r + n * a < p → a = 0 := by
      intro a ha
      by_contra h0
      have : n * 1 ≤ n * a := Nat.mul_le_mul_left n (Nat.pos_of_ne_zero h0)
      omega
    have hw0 : w / 2 = 0 := by
      obtain ⟨_, R, x', y', _, hc', hx', _⟩ := hR
      exact hsmall _ (by rw [← hx']; exact (Secp.coords_lt hc').1)
    have hv0 : v.toNat / 2 = 0 := hsmall _ (by rw [← hxr]; exact (Secp.coords_lt hc).1)
    by_cases hwv : w % 2 = v.toNat % 2
    · left
      have : w = v.toNat := by omega
      subst this
      exact (hA _).1 hR
    · exact .inr ((hB _ w (by omega) hwv).1 hR)
  · rintro (rfl | rfl)
    · exact hVA
    · exact hVB

/-- **C132** In every case, that of r below p - n included: at most four points for one signature and message, and (C130) at most
four s for one key, message and r. -/
theorem C132_at_most_four (m r : Nat) :
    (∀ s, {Q | Verifies Q m r s}.Finite ∧ {Q | Verifies Q m r s}.ncard ≤ 4) ∧
    (∀ Q, {s | Verifies Q m r s}.Finite ∧ {s | Verifies Q m r s}.ncard ≤ 4) := by
  classical
  have four : (Set.Iio 4 : Set Nat).ncard = 4 := by
    rw [← Set.Ico_bot, ← Finset.coe_Ico, Set.ncard_coe_finset, Nat.card_Ico]
    rfl
  have fin : (Set.Iio 4 : Set Nat).Finite := Set.finite_Iio 4
  -- one recovery id gives one point, and one s
  have one : ∀ (d d' s s' v : Nat), Recovers (d • G) m r s v → Recovers (d' • G) m r s' v →
      ∃ K : Nat, (K : ZMod n) ≠ 0 ∧ (K : ZMod n) * s = m + r * d ∧ (K : ZMod n) * s' = m + r * d' := by
    intro d d' s s' v h h'
    obtain ⟨hv, R, x, y, w, hc, hx, hy, hw, hQ⟩ := h
    obtain ⟨K, -, rfl⟩ := Secp.exists_log R
    refine ⟨K, ?_, eq_of_recovers hc hx hy ⟨hv, _, x, y, w, hc, hx, hy, hw, hQ⟩, eq_of_recovers hc hx hy h'⟩
    intro h0
    have : K • G = 0 := by
      have := smulG.2 (show ((K : Nat) : ZMod n) = ((0 : Nat) : ZMod n) by rw [h0]; simp)
      rwa [zero_nsmul] at this
    rw [this] at hc
    exact hc
  refine ⟨fun s => ?_, fun Q => ?_⟩
  · let f : Point → Nat := fun Q => if h : ∃ v, Recovers Q m r s v then h.choose else 0
    have hmap : Set.MapsTo f {Q | Verifies Q m r s} (Set.Iio 4) := by
      intro Q hQ
      obtain ⟨_, _, _, _, h⟩ := (verifies_iff_recovers _ _ _ _).1 hQ
      show f Q < 4
      simp only [f, dif_pos h]
      exact h.choose_spec.1
    have hinj : Set.InjOn f {Q | Verifies Q m r s} := by
      intro Q hQ Q' hQ' he
      obtain ⟨a, b, c, d, h⟩ := (verifies_iff_recovers _ _ _ _).1 hQ
      obtain ⟨_, _, _, _, h'⟩ := (verifies_iff_recovers _ _ _ _).1 hQ'
      simp only [f, dif_pos h, dif_pos h'] at he
      have s1 := h.choose_spec
      have s2 := h'.choose_spec
      rw [← he] at s2
      obtain ⟨q, -, rfl⟩ := Secp.exists_log Q
      obtain ⟨q', -, rfl⟩ := Secp.exists_log Q'
      obtain ⟨K, _, e1, e2⟩ := one _ _ _ _ _ s1 s2
      rw [smulG]
      exact mul_left_cancel₀ (castNe a b) (by linear_combination e2 - e1)
    exact ⟨Set.Finite.of_injOn hmap hinj fin, four ▸ Set.ncard_le_ncard_of_injOn f hmap hinj fin⟩
  · let f : Nat → Nat := fun s => if h : ∃ v, Recovers Q m r s v then h.choose else 0
    have hmap : Set.MapsTo f {s | Verifies Q m r s} (Set.Iio 4) := by
      intro s hs
      obtain ⟨_, _, _, _, h⟩ := (verifies_iff_recovers _ _ _ _).1 hs
      show f s < 4
      simp only [f, dif_pos h]
      exact h.choose_spec.1
    have hinj : Set.InjOn f {s | Verifies Q m r s} := by
      intro s hs s' hs' he
      obtain ⟨a, b, c, d, h⟩ := (verifies_iff_recovers _ _ _ _).1 hs
      obtain ⟨_, _, c', d', h'⟩ := (verifies_iff_recovers _ _ _ _).1 hs'
      simp only [f, dif_pos h, dif_pos h'] at he
      have s1 := h.choose_spec
      have s2 := h'.choose_spec
      rw [← he] at s2
      obtain ⟨q, -, rfl⟩ := Secp.exists_log Q
      obtain ⟨K, hK, e1, e2⟩ := one _ _ _ _ _ s1 s2
      exact (cast_pm ⟨c, d⟩ ⟨c', d'⟩).1 (mul_left_cancel₀ hK (e1.trans e2.symm))
    exact ⟨Set.Finite.of_injOn hmap hinj fin, four ▸ Set.ncard_le_ncard_of_injOn f hmap hinj fin⟩

-- a signature to which all of it applies
example : ∃ sig v, ecdsaSign (constSha256 1) false 1 exKey.privateKey (List.replicate 32 0) = some (.ok (sig, v)) ∧
    sig.1.take 32 ≠ List.replicate 32 0 ∧ p ≤ bytesVal (sig.1.take 32) + n := by
  refine ⟨⟨natBE 32 Spec.Secp.gx ++ natBE 32 Spec.Secp.gx, by simp⟩, 0, ?_, ?_, ?_⟩ <;> decide +kernel

end Kms.Props
