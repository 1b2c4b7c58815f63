import Verif.Props.Nonces
/-
C130: which other signatures of a signed message are accepted.
-/
namespace Kms.Props
open Kms.Spec Kms.Spec.Bip32 Kms.Spec.Ecdsa
open Kms.Spec.Secp (Point G n p HasCoords)
open Kms.Secp (SecretKey)

/-! ### one nonce and its equation -/

theorem smulG {a b : Nat} : a • G = b • G ↔ (a : ZMod n) = b := by
  rw [Secp.smul_G_inj]
  exact Secp.mod_n_iff a b

theorem castNe {a : Nat} (h0 : 0 < a) (h : a < n) : (a : ZMod n) ≠ 0 := Secp.cast_ne_zero_n h0 h

/-- A number below n is known from its residue, its sign included. -/
theorem cast_pm {a b : Nat} (ha : 0 < a ∧ a < n) (hb : 0 < b ∧ b < n) :
    ((a : ZMod n) = b → a = b) ∧ ((a : ZMod n) = -b → a = n - b) := by
  refine ⟨fun e => ?_, fun e => ?_⟩
  · have := (ZMod.natCast_eq_natCast_iff _ _ n).1 e
    unfold Nat.ModEq at this
    rwa [Nat.mod_eq_of_lt ha.2, Nat.mod_eq_of_lt hb.2] at this
  · have e' : (a : ZMod n) = ((n - b : Nat) : ZMod n) := by
      rw [e, Nat.cast_sub hb.2.le]
      simp
    have := (ZMod.natCast_eq_natCast_iff _ _ n).1 e'
    unfold Nat.ModEq at this
    rwa [Nat.mod_eq_of_lt ha.2, Nat.mod_eq_of_lt (by omega)] at this

theorem inv_mod {a : Nat} (h0 : 0 < a) (h : a < n) : a * ((a : ZMod n)⁻¹).val % n = 1 := by
  have : (a * ((a : ZMod n)⁻¹).val) % n = 1 % n := by
    refine (ZMod.natCast_eq_natCast_iff _ _ n).1 ?_
    push_cast
    rw [ZMod.natCast_zmod_val, mul_inv_cancel₀ (castNe h0 h)]
  rw [this]
  decide

theorem eq_verifies {d m k r s x y : Nat} (hr : 0 < r) (hs : 0 < s ∧ s < n) (hc : HasCoords (k • G) x y) (hrx : r = x % n)
    (he : (k : ZMod n) * s = m + r * d) : Verifies (d • G) m r s := by
  have hrn : r < n := hrx ▸ Nat.mod_lt _ (by decide)
  refine ⟨hr, hrn, hs.1, hs.2, ((s : ZMod n)⁻¹).val, x, y, inv_mod hs.1 hs.2, ?_, hrx.symm⟩
  have : (m * ((s : ZMod n)⁻¹).val) • G + (r * ((s : ZMod n)⁻¹).val) • d • G = k • G := by
    rw [← mul_nsmul', ← add_nsmul, smulG]
    push_cast
    rw [ZMod.natCast_zmod_val]
    have hs' := castNe hs.1 hs.2
    field_simp
    linear_combination -he
  rw [this]
  exact hc

theorem x_split {x y v : Nat} {P : Point} (hc : HasCoords P x y) (hv : v = (if n ≤ x then 2 else 0) + y % 2) :
    v < 4 ∧ x = x % n + n * (v / 2) ∧ y % 2 = v % 2 := by
  have hx : x < 2 * n := Nat.lt_trans (Secp.coords_lt hc).1 Secp.p_lt_two_n
  by_cases h : n ≤ x
  · rw [if_pos h] at hv
    have : v / 2 = 1 := by omega
    rw [this, Nat.mod_eq_sub_mod h, Nat.mod_eq_of_lt (by omega)]
    omega
  · rw [if_neg h] at hv
    have : v / 2 = 0 := by omega
    rw [this, Nat.mod_eq_of_lt (by omega)]
    omega

theorem eq_recovers {d m k r s v x y : Nat} (hr : 0 < r) (hc : HasCoords (k • G) x y) (hrx : r = x % n) (hv4 : v < 4)
    (hx : x = x % n + n * (v / 2)) (hy : y % 2 = v % 2) (he : (k : ZMod n) * s = m + r * d) : Recovers (d • G) m r s v := by
  have hrn : r < n := hrx ▸ Nat.mod_lt _ (by decide)
  have hr' := castNe hr hrn
  refine ⟨hv4, k • G, x, y, ((r : ZMod n)⁻¹).val, hc, by rw [hrx]; exact hx, hy, inv_mod hr hrn, ?_⟩
  have h1 : s • k • G - m • G = (r * d) • G := by
    rw [sub_eq_iff_eq_add, ← mul_nsmul', ← add_nsmul, smulG]
    push_cast
    linear_combination he
  rw [h1, ← mul_nsmul', smulG]
  push_cast
  rw [ZMod.natCast_zmod_val, ← mul_assoc, inv_mul_cancel₀ hr', one_mul]

/-- Points with the same x coordinate and y of the same parity are the same. -/
theorem point_unique {P P' : Point} {x y y' : Nat} (h : HasCoords P x y) (h' : HasCoords P' x y') (hy : y % 2 = y' % 2) : P = P' := by
  match P, h, P', h' with
  | .some a b hab, hc, .some a' b' hab', hc' =>
    have ha : a = a' := ZMod.val_injective _ (hc.1.trans hc'.1.symm)
    subst ha
    have hb : b = b' := by
      refine Secp.y_unique ((Spec.Secp.nonsingular_iff _ _).1 hab) ((Spec.Secp.nonsingular_iff _ _).1 hab') ?_
      rw [hc.2, hc'.2, hy]
    subst hb
    rfl

theorem eq_of_recovers {d m K r s' v' x Y : Nat}
    (hc : HasCoords (K • G) x Y) (hx : x = r + n * (v' / 2)) (hy : Y % 2 = v' % 2) (h : Recovers (d • G) m r s' v') :
    (K : ZMod n) * s' = m + r * d := by
  obtain ⟨_, R, x', y', w, hR, hx', hy', hw, hQ⟩ := h
  have exx : x' = x := hx'.trans hx.symm
  subst exx
  have : R = K • G := point_unique hR hc (hy'.trans hy.symm)
  subst this
  have e : (d + w * m) • G = (w * (s' * K)) • G := by
    rw [add_nsmul, hQ, nsmul_sub, mul_nsmul' G w m, mul_nsmul' G w (s' * K), mul_nsmul' G s' K]
    abel
  rw [smulG] at e
  push_cast at e
  have hw' : (r : ZMod n) * w = 1 := by
    have : ((r * w : Nat) : ZMod n) = (1 : Nat) := cast_mod (by rw [hw]; decide)
    push_cast at this
    exact this
  linear_combination (-(r : ZMod n)) * e + (m - s' * K : ZMod n) * hw'

theorem eq_of_verifies {d m k r s s' x y : Nat} (hs : 0 < s ∧ s < n) (hk : 0 < k ∧ k < n) (hc : HasCoords (k • G) x y)
    (hrx : r = x % n) (hp : p ≤ r + n) (he : (k : ZMod n) * s = m + r * d) (h : Verifies (d • G) m r s') : s' = s ∨ s' = n - s := by
  obtain ⟨_, _, h0, h1, w, x', y', hw, hc', hr'⟩ := h
  have hsmall : ∀ a, a < p → a % n = r → a = r := by
    intro a ha hr
    by_contra hne
    have hd := Nat.div_add_mod a n
    have hq : a / n ≠ 0 := by
      intro h0
      rw [h0, hr] at hd
      omega
    have : n * 1 ≤ n * (a / n) := Nat.mul_le_mul_left n (Nat.pos_of_ne_zero hq)
    omega
  have ex : x' = x := (hsmall _ (Secp.coords_lt hc').1 hr').trans (hsmall _ (Secp.coords_lt hc).1 hrx.symm).symm
  subst ex
  have hw' : (s' : ZMod n) * w = 1 := by
    have : ((s' * w : Nat) : ZMod n) = (1 : Nat) := cast_mod (by rw [hw]; decide)
    push_cast at this
    exact this
  have hk' := castNe hk.1 hk.2
  have hneg := Secp.coords_neg hc
  rw [← Secp.smul_neg_G hk.2] at hneg
  have hpo : p % 2 = 1 := by decide
  have hyp : y < p := (Secp.coords_lt hc).2.1
  have hKK : ∀ K : Nat, (m * w) • G + (r * w) • d • G = K • G → (m : ZMod n) * w + r * w * d = K := by
    intro K e
    rw [← mul_nsmul', ← add_nsmul, smulG] at e
    push_cast at e
    exact e
  by_cases hy : y' % 2 = y % 2
  · left
    have e := hKK _ (point_unique hc' hc hy)
    refine (cast_pm ⟨h0, h1⟩ hs).1 (mul_left_cancel₀ hk' ?_)
    linear_combination (-(s' : ZMod n)) * e + (m + r * d : ZMod n) * hw' - he
  · right
    have e := hKK _ (point_unique hc' hneg (by show y' % 2 = (p - y) % 2; omega))
    have en : (((Secp.n - k : Nat)) : ZMod n) = -(k : ZMod n) := by
      show ((n - k : Nat) : ZMod n) = _
      rw [Nat.cast_sub hk.2.le]
      simp
    rw [en] at e
    refine (cast_pm ⟨h0, h1⟩ hs).2 (mul_left_cancel₀ hk' ?_)
    linear_combination (s' : ZMod n) * e - (m + r * d : ZMod n) * hw' + he

/-- **C130** What else is accepted for a message that was signed. Write (r, s) for the signature, v for its recovery id, m for
the message as a number and Q for the public key, and let r not be zero. Then (r, n - s) verifies too, and its s is above n / 2.
With the same bit 1 of the recovery id, the key is recovered from exactly two signatures with this r: the one returned, and
n - s with bit 0 of the recovery id changed. Unless r is below p - n, no third signature with this r verifies. -/
theorem C130_other_signatures (H : Hashes) (debug : Bool) (fuel : Nat) (sk : SecretKey) (msg : Bytes) (sig : ByteArr 64) (v : UInt8)
    (h : ecdsaSign H debug fuel sk msg = some (.ok (sig, v))) (hr0 : sig.1.take 32 ≠ List.replicate 32 0) :
    let m := bytesVal msg
    let Q := sk.k • G
    let r := bytesVal (sig.1.take 32)
    let s := bytesVal (sig.1.drop 32)
    Verifies Q m r s ∧ s ≤ n / 2 ∧ Verifies Q m r (n - s) ∧ n / 2 < n - s ∧
    (∀ s' v', 0 < s' → s' < n → v' / 2 = v.toNat / 2 →
      (Recovers Q m r s' v' ↔ (s' = s ∧ v' = v.toNat) ∨ (s' = n - s ∧ v' % 2 ≠ v.toNat % 2))) ∧
    (p ≤ r + n → ∀ s', Verifies Q m r s' ↔ s' = s ∨ s' = n - s) := by
  obtain ⟨j, r, s, k, x, y, hj, hs, hrn, hs0, hs2, c0, c1, hk, hc, er, ev, he⟩ := sign_facts h
  obtain ⟨p1, p2⟩ := sig_parts hs hrn hs2
  simp only [p1, p2]
  have hodd : n % 2 = 1 := by decide
  have hpo : p % 2 = 1 := by decide
  have hrp : 0 < r := by
    rcases Nat.eq_zero_or_pos r with h0 | h0
    · exfalso
      apply hr0
      rw [hs, h0, List.take_left' (by simp [ser256])]
      decide
    · exact h0
  have hkn := nonce_lt c0 c1 hk
  have hsn : 0 < s ∧ s < n := ⟨hs0, by omega⟩
  have hsn' : 0 < n - s ∧ n - s < n := by omega
  have e := cast_mod he
  push_cast at e
  have hneg := Secp.coords_neg hc
  rw [← Secp.smul_neg_G hkn.2] at hneg
  have hyp : y < p := (Secp.coords_lt hc).2.1
  have en : (((Secp.n - k : Nat)) : ZMod n) = -(k : ZMod n) := by
    show ((n - k : Nat) : ZMod n) = _
    rw [Nat.cast_sub hkn.2.le]
    simp
  have esn : (((n - s : Nat)) : ZMod n) = -(s : ZMod n) := by
    rw [Nat.cast_sub hsn.2.le]
    simp
  have e' : (((Secp.n - k : Nat)) : ZMod n) * ((n - s : Nat) : ZMod n) = (bytesVal msg : Nat) + r * sk.k := by
    rw [en, esn, ← e]
    ring
  have hv := x_split hc ev
  have hyn : (Secp.p - y) % 2 ≠ y % 2 := by
    show (p - y) % 2 ≠ y % 2
    omega
  have hV := eq_verifies hrp hsn hc er e
  have hV' := eq_verifies hrp hsn' hneg er e'
  refine ⟨hV, hs2, hV', by omega, fun s' v' h0 h1 hv2 => ⟨fun hR => ?_, ?_⟩, fun hp s' => ⟨fun hs' => ?_, ?_⟩⟩
  · have hx : x = r + n * (v' / 2) := by
      rw [er, hv2]
      exact hv.2.1
    by_cases hy : v' % 2 = v.toNat % 2
    · left
      have e2 := eq_of_recovers hc hx (by rw [hv.2.2, hy]) hR
      refine ⟨(cast_pm ⟨h0, h1⟩ hsn).1 (mul_left_cancel₀ (castNe hkn.1 hkn.2) (e2.trans e.symm)), by omega⟩
    · right
      have hK : 0 < n - k ∧ n - k < n := by omega
      have e2 := eq_of_recovers hneg hx (by omega) hR
      refine ⟨(cast_pm ⟨h0, h1⟩ hsn').1 (mul_left_cancel₀ (castNe hK.1 hK.2) (e2.trans e'.symm)), hy⟩
  · rintro (⟨rfl, rfl⟩ | ⟨rfl, hy⟩)
    · exact eq_recovers hrp hc er hv.1 hv.2.1 hv.2.2 e
    · refine eq_recovers hrp hneg er (by omega) ?_ (by omega) e'
      rw [hv2]
      exact hv.2.1
  · exact eq_of_verifies hsn hkn hc er hp e hs'
  · rintro (rfl | rfl)
    · exact hV
    · exact hV'

/-- **C130** The r below p - n, for which more signatures may verify, are rare: at most 4 (p - n) of the n - 1 nonces have them,
less than one in 2 ^ 125. -/
theorem C130_mostly_two :
    {k | k < n ∧ ∃ x y, HasCoords (k • G) x y ∧ x % n + n < p}.Finite ∧
    {k | k < n ∧ ∃ x y, HasCoords (k • G) x y ∧ x % n + n < p}.ncard ≤ 4 * (p - n) ∧
    4 * (p - n) * 2 ^ 125 < n - 1 := by
  have hX : (Set.Iio (p - n) ∪ Set.Ico n p).Finite := (Set.finite_Iio _).union (Set.finite_Ico _ _)
  have hsub : {k | k < n ∧ ∃ x y, HasCoords (k • G) x y ∧ x % n + n < p} ⊆
      {k | k < n ∧ ∃ x ∈ Set.Iio (p - n) ∪ Set.Ico n p, ∃ y, HasCoords (k • G) x y} := by
    rintro k ⟨hk, x, y, hc, hx⟩
    refine ⟨hk, x, ?_, y, hc⟩
    rcases Nat.lt_or_ge x n with h | h
    · left
      rw [Nat.mod_eq_of_lt h] at hx
      show x < p - n
      omega
    · exact .inr ⟨h, (Secp.coords_lt hc).1⟩
  obtain ⟨h1, h2⟩ := nonces_le _ hX
  refine ⟨h1.subset hsub, (Set.ncard_le_ncard hsub h1).trans (h2.trans ?_), by decide⟩
  have h3 : (Set.Iio (p - n) ∪ Set.Ico n p).ncard ≤ (p - n) + (p - n) := by
    refine (Set.ncard_union_le _ _).trans ?_
    rw [← Set.Ico_bot, ← Finset.coe_Ico, ← Finset.coe_Ico, Set.ncard_coe_finset, Set.ncard_coe_finset, Nat.card_Ico, Nat.card_Ico]
    simp
  omega

-- a signature to which all of it applies: the nonce is 1, so r is the x coordinate of the generator
example : ∃ sig v, ecdsaSign (constSha256 1) false 1 exKey.privateKey (List.replicate 32 0) = some (.ok (sig, v)) ∧
    sig.1.take 32 ≠ List.replicate 32 0 ∧ p ≤ bytesVal (sig.1.take 32) + n := by
  refine ⟨⟨natBE 32 Spec.Secp.gx ++ natBE 32 Spec.Secp.gx, by simp⟩, 0, ?_, ?_, ?_⟩ <;> decide +kernel

-- there are nonces with such an r: one has a point with x = n
example : {k | k < n ∧ ∃ x y, HasCoords (k • G) x y ∧ x % n + n < p}.Nonempty := by
  obtain ⟨k, _, hk, y, hc⟩ := point_n
  exact ⟨k, hk, n, y, hc, by decide⟩

end Kms.Props
