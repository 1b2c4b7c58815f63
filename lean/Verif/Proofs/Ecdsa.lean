import Verif.Model.Ecdsa
import Verif.Spec.Ecdsa
import Verif.Proofs.Keys
/-
Lemmas about signing.
-/
namespace Kms.Secp
open Kms.Spec.Secp (E F Point HasCoords)

instance : Fact n.Prime := ⟨Spec.Secp.n_prime⟩

theorem n_odd : n % 2 = 1 := by decide
theorem n_pos : 0 < n := by decide
theorem p_lt_two_n : p < 2 * n := by decide
theorem n_lt_p : n < p := by decide

theorem mod_n_iff (a b : Nat) : a % n = b % n ↔ (a : ZMod n) = b := (ZMod.natCast_eq_natCast_iff a b n).symm

theorem cast_modn (a : Nat) : ((a % n : Nat) : ZMod n) = a := by simp

theorem cast_n : ((n : Nat) : ZMod n) = 0 := by simp

theorem cast_ne_zero_n {a : Nat} (h0 : 0 < a) (h : a < n) : (a : ZMod n) ≠ 0 := by
  intro h'
  rw [ZMod.natCast_eq_zero_iff] at h'
  exact absurd (Nat.le_of_dvd h0 h') (Nat.not_le.2 h)

theorem cast_invN (a : Nat) : ((invN a : Nat) : ZMod n) = (a : ZMod n)⁻¹ := by
  rw [invN, powMod_eq _ _ _ _ (by decide), cast_modn]
  push_cast
  by_cases h : (a : ZMod n) = 0
  · rw [h, inv_zero, zero_pow]; decide
  · refine eq_inv_of_mul_eq_one_left ?_
    rw [← pow_succ]
    have : n - 2 + 1 = n - 1 := by decide
    rw [this]
    exact ZMod.pow_card_sub_one_eq_one h

theorem coords_lt {Q : Point} {x y : Nat} (h : HasCoords Q x y) : x < p ∧ y < p ∧ 0 < y := by
  match Q, h with
  | .some a b hab, h =>
    obtain ⟨rfl, rfl⟩ := h
    refine ⟨val_lt a, val_lt b, ?_⟩
    have := y_ne_zero ((Spec.Secp.nonsingular_iff _ _).1 hab)
    exact Nat.pos_of_ne_zero fun e => this ((ZMod.val_eq_zero b).1 e)

theorem coords_neg {Q : Point} {x y : Nat} (h : HasCoords Q x y) : HasCoords (-Q) x (p - y) := by
  have h0 := (coords_lt h).2.2
  match Q, h with
  | .some a b hab, h =>
    obtain ⟨rfl, rfl⟩ := h
    have hb : b ≠ 0 := fun e => by rw [e] at h0; simp at h0
    rw [WeierstrassCurve.Affine.Point.neg_some]
    refine ⟨rfl, ?_⟩
    rw [negY_eq, p_eq, ZMod.neg_val, if_neg hb]

theorem coords_unique {Q : Point} {x y x' y' : Nat} (h : HasCoords Q x y) (h' : HasCoords Q x' y') : x = x' ∧ y = y' := by
  match Q, h, h' with
  | .some a b hab, h, h' => exact ⟨h.1.symm.trans h'.1, h.2.symm.trans h'.2⟩

theorem smul_neg_G {k : Nat} (hk : k < n) : (n - k) • Spec.Secp.G = -(k • Spec.Secp.G) := by
  rw [eq_neg_iff_add_eq_zero, ← add_nsmul, Nat.sub_add_cancel (Nat.le_of_lt hk), n_eq]
  exact n_smul_G

theorem nonce_coords {k : Nat} (h0 : 0 < k) (hk : k < n) :
    HasCoords (k • Spec.Secp.G) (PublicKey.ofPt (mul 256 k G)).x (PublicKey.ofPt (mul 256 k G)).y :=
  rep_coords.1 (fromSecretKey_rep ⟨k, h0, hk⟩)

/-- The value s before it is made low: zero exactly when the nonce cannot be used. -/
theorem sigs_zero {k m r d : Nat} (h0 : 0 < k) (hk : k < n) :
    invN k * ((r * d + m) % n) % n = 0 ↔ n ∣ m + r * d := by
  rw [← Nat.dvd_iff_mod_eq_zero, ← ZMod.natCast_eq_zero_iff, ← ZMod.natCast_eq_zero_iff]
  push_cast
  rw [cast_invN, mul_eq_zero, or_iff_right (inv_ne_zero (cast_ne_zero_n h0 hk))]
  simp only [ZMod.natCast_mod]
  push_cast
  rw [add_comm]

theorem sigs_eq {k m r d : Nat} (h0 : 0 < k) (hk : k < n) :
    k * (invN k * ((r * d + m) % n) % n) % n = (m + r * d) % n := by
  rw [mod_n_iff]
  push_cast
  rw [cast_modn]
  push_cast
  rw [cast_modn, cast_invN, ← mul_assoc, mul_inv_cancel₀ (cast_ne_zero_n h0 hk), one_mul]
  push_cast
  ring

open Spec.Ecdsa (Signature Unusable)

/-- No point has x coordinate 0: 7 is not a square. -/
theorem x_ne_zero {Q : Point} {y : Nat} : ¬ HasCoords Q 0 y := by
  intro h
  match Q, h with
  | .some a b hab, h =>
    obtain ⟨h1, _⟩ := h
    have ha : a = 0 := (ZMod.val_eq_zero a).1 h1
    have hb := (Spec.Secp.nonsingular_iff _ _).1 hab
    rw [ha] at hb
    have h7 : ((7 : Nat) : F) = b ^ 2 := by rw [hb]; push_cast; ring
    have h8 : ((mulM (PublicKey.sqrtM 7) (PublicKey.sqrtM 7) : Nat) : F) = ((7 : Nat) : F) := by
      rw [cast_mulM, h7]
      rcases sqrt_sq h7 with h | h <;> rw [h] <;> ring
    rw [cast_inj (mulM_lt _ _) (by decide)] at h8
    exact absurd h8 (by decide +kernel)

theorem signRaw_cases (debug : Bool) {d m k : Nat} (h0 : 0 < k) (hk : k < n) {x y : Nat}
    (hc : HasCoords (k • Spec.Secp.G) x y) :
    ((debug = true ∧ (x % n = 0 ∨ n ≤ x)) ∧ signRaw debug d m k = .panic) ∨
    (¬ (debug = true ∧ (x % n = 0 ∨ n ≤ x)) ∧ n ∣ m + x % n * d ∧ signRaw debug d m k = .err .invalidMessage) ∨
    (¬ (debug = true ∧ (x % n = 0 ∨ n ≤ x)) ∧ ¬ n ∣ m + x % n * d ∧
      ∃ s v, signRaw debug d m k = .ok (x % n, s, v) ∧ Signature d m k (x % n) s v) := by
  obtain ⟨h1, h2⟩ := coords_unique (nonce_coords h0 hk) hc
  unfold signRaw
  simp only [h1, h2]
  clear h1 h2
  have hz := sigs_zero (m := m) (r := x % n) (d := d) h0 hk
  have he := sigs_eq (m := m) (r := x % n) (d := d) h0 hk
  have hl : invN k * ((x % n * d + m) % n) % n < n := Nat.mod_lt _ n_pos
  generalize invN k * ((x % n * d + m) % n) % n = s at hz he hl
  by_cases hd : debug = true ∧ (x % n = 0 ∨ n ≤ x)
  · left
    refine ⟨hd, ?_⟩
    rw [if_pos]
    simpa using hd
  · right
    rw [if_neg (by simpa using hd)]
    by_cases hs : s = 0
    · left
      exact ⟨hd, hz.1 hs, if_pos hs⟩
    · right
      refine ⟨hd, fun h => hs (hz.2 h), ?_⟩
      rw [if_neg hs]
      have hodd := n_odd
      by_cases hh : n / 2 < s
      · rw [if_pos (by simpa [isHigh] using hh)]
        refine ⟨_, _, rfl, by omega, Nat.le_of_lt_succ (by rw [← n_eq]; omega), n - k, x, p - y, Or.inr rfl, ?_, rfl, ?_, ?_⟩
        · rw [smul_neg_G hk]; exact coords_neg hc
        · have hp := p_odd
          obtain ⟨_, hy, hy0⟩ := coords_lt hc
          have : (p - y) % 2 = if y % 2 = 1 then 0 else 1 := by split <;> omega
          rw [this, ← n_eq]
          simp only [decide_eq_true_eq]
          split <;> split <;> rfl
        · rw [← n_eq, ← he, mod_n_iff]
          push_cast [Nat.cast_sub (Nat.le_of_lt hk), Nat.cast_sub (Nat.le_of_lt hl)]
          rw [cast_n]; ring
      · rw [if_neg (by simpa [isHigh] using hh)]
        refine ⟨_, _, rfl, by omega, Nat.le_of_lt_succ (by rw [← n_eq]; omega), k, x, y, Or.inl rfl, hc, rfl, ?_, he⟩
        simp only [decide_eq_true_eq]
        congr 1
        split <;> omega

/-- The ECDSA equation and the recovery of the public key. -/
theorem sig_verifies {d m k r s v : Nat} (h : Signature d m k r s v) (hr : r ≠ 0) :
    Spec.Ecdsa.Verifies (d • Spec.Secp.G) m r s := by
  obtain ⟨hs0, hs, k', x, y, _, hc, hrx, _, he⟩ := h
  rw [← n_eq] at *
  have hsn : s < n := by have := n_pos; omega
  have hrn : r < n := hrx ▸ Nat.mod_lt _ n_pos
  refine ⟨Nat.pos_of_ne_zero hr, hrn, hs0, hsn, ((s : ZMod n)⁻¹).val, x, y, ?_, ?_, hrx.symm⟩
  · have : (s * ((s : ZMod n)⁻¹).val) % n = 1 % n := by
      rw [mod_n_iff]
      push_cast
      rw [ZMod.natCast_zmod_val, mul_inv_cancel₀ (cast_ne_zero_n hs0 hsn)]
    rw [← n_eq, this]; decide
  · have : (m * ((s : ZMod n)⁻¹).val) • Spec.Secp.G + (r * ((s : ZMod n)⁻¹).val) • d • Spec.Secp.G = k' • Spec.Secp.G := by
      rw [← mul_nsmul', ← add_nsmul, smul_G_inj, mod_n_iff]
      rw [mod_n_iff] at he
      push_cast at he ⊢
      rw [ZMod.natCast_zmod_val]
      have hs' := cast_ne_zero_n hs0 hsn
      field_simp
      linear_combination -he
    rw [this]
    exact hc

theorem sig_recovers {d m k r s v : Nat} (h : Signature d m k r s v) (hr : r ≠ 0) :
    Spec.Ecdsa.Recovers (d • Spec.Secp.G) m r s v := by
  obtain ⟨hs0, hs, k', x, y, _, hc, hrx, hv, he⟩ := h
  rw [← n_eq] at *
  have hsn : s < n := by have := n_pos; omega
  have hrn : r < n := hrx ▸ Nat.mod_lt _ n_pos
  have hr' := cast_ne_zero_n (Nat.pos_of_ne_zero hr) hrn
  have hlt := p_lt_two_n
  have hx := (coords_lt hc).1
  refine ⟨by rw [hv]; split <;> omega, k' • Spec.Secp.G, x, y, ((r : ZMod n)⁻¹).val, hc, ?_, ?_, ?_, ?_⟩
  · rw [hv, hrx, ← n_eq]
    split
    · rename_i h
      rw [Nat.mod_eq_sub_mod h, Nat.mod_eq_of_lt (by omega)]
      have : (2 + y % 2) / 2 = 1 := by omega
      rw [this]; omega
    · rename_i h
      rw [Nat.mod_eq_of_lt (by omega)]
      have : (0 + y % 2) / 2 = 0 := by omega
      rw [this]; omega
  · rw [hv]; split <;> omega
  · have : (r * ((r : ZMod n)⁻¹).val) % n = 1 % n := by
      rw [mod_n_iff]
      push_cast
      rw [ZMod.natCast_zmod_val, mul_inv_cancel₀ hr']
    rw [← n_eq, this]; decide
  · have h1 : s • k' • Spec.Secp.G - m • Spec.Secp.G = (r * d) • Spec.Secp.G := by
      rw [sub_eq_iff_eq_add, ← mul_nsmul', ← add_nsmul, smul_G_inj, mul_comm s, he, add_comm]
    rw [h1, ← mul_nsmul', smul_G_inj, mod_n_iff]
    push_cast
    rw [ZMod.natCast_zmod_val, ← mul_assoc, inv_mul_cancel₀ hr', one_mul]

/-- No number in range, its negative included, makes two signatures. -/
theorem sig_unique {d m k r s v r' s' v' : Nat} (h0 : 0 < k) (hk : k < n) (h : Signature d m k r s v)
    (h' : Signature d m k r' s' v') : r = r' ∧ s = s' ∧ v = v' := by
  obtain ⟨hs0, hs, a, x, y, ha, hc, hrx, hv, he⟩ := h
  obtain ⟨hs0', hs', a', x', y', ha', hc', hrx', hv', he'⟩ := h'
  rw [← n_eq] at *
  have hodd := n_odd
  have hxx : x = x' ∧ (a = a' → y = y') := by
    rcases ha with rfl | rfl <;> rcases ha' with rfl | rfl
    · obtain ⟨h1, h2⟩ := coords_unique hc hc'; exact ⟨h1, fun _ => h2⟩
    · rw [smul_neg_G hk] at hc'
      refine ⟨(coords_unique (coords_neg hc) hc').1, fun e => absurd e (by omega)⟩
    · rw [smul_neg_G hk] at hc
      refine ⟨(coords_unique hc (coords_neg hc')).1, fun e => absurd e (by omega)⟩
    · obtain ⟨h1, h2⟩ := coords_unique hc hc'; exact ⟨h1, fun _ => h2⟩
  obtain ⟨rfl, hyy⟩ := hxx
  have hrr : r = r' := hrx.trans hrx'.symm
  subst hrr
  have hkz := cast_ne_zero_n h0 hk
  have hle := Nat.le_of_lt hk
  have hee := (mod_n_iff _ _).1 (he.trans he'.symm)
  have hneg : (s : ZMod n) ≠ -(s' : ZMod n) := by
    intro e
    have : ((s + s' : Nat) : ZMod n) = 0 := by push_cast; rw [e]; ring
    rw [ZMod.natCast_eq_zero_iff] at this
    have := Nat.le_of_dvd (by omega) this
    omega
  have hpos : (s : ZMod n) = s' → s = s' := by
    intro e
    have := (mod_n_iff _ _).2 e
    rwa [Nat.mod_eq_of_lt (by omega), Nat.mod_eq_of_lt (by omega)] at this
  rcases ha with rfl | rfl <;> rcases ha' with rfl | rfl
  · push_cast at hee
    refine ⟨rfl, hpos (mul_left_cancel₀ hkz hee), ?_⟩
    rw [hv, hv', hyy rfl]
  · push_cast [Nat.cast_sub hle] at hee
    rw [cast_n] at hee
    exact absurd (mul_left_cancel₀ hkz (hee.trans (by ring : (0 - (a : ZMod n)) * s' = a * -s'))) hneg
  · push_cast [Nat.cast_sub hle] at hee
    rw [cast_n] at hee
    refine absurd (mul_left_cancel₀ hkz ?_) hneg
    linear_combination -hee
  · push_cast [Nat.cast_sub hle] at hee
    rw [cast_n] at hee
    refine ⟨rfl, hpos (mul_left_cancel₀ hkz ?_), ?_⟩
    · linear_combination -hee
    · rw [hv, hv', hyy rfl]

/-! ### The loop -/

/-- The state before the turn number `j`. -/
def drbgAt (H : Hashes) (D : Drbg) : Nat → Drbg
  | 0 => D
  | j + 1 => ((drbgAt H D j).generate H).2

theorem drbgAt_succ (H : Hashes) (D : Drbg) (j : Nat) : drbgAt H D (j + 1) = drbgAt H (D.generate H).2 j := by
  induction j with
  | zero => rfl
  | succ j ih => rw [drbgAt, ih, drbgAt]

/-- The number of the turn `j`. -/
def cand (H : Hashes) (D : Drbg) (j : Nat) : Nat := beNat ((drbgAt H D j).generate H).1.1

theorem cand_succ (H : Hashes) (D : Drbg) (j : Nat) : cand H D (j + 1) = cand H (D.generate H).2 j := by
  rw [cand, drbgAt_succ, cand]

/-- One turn: skip the number, or stop. -/
def turn (debug : Bool) (d m k : Nat) : Option (Res Error RawSig) :=
  if k < n ∧ k ≠ 0 then
    match signRaw debug d m k with
    | .ok val => some (.ok val)
    | .panic => some .panic
    | .err _ => none
  else none

theorem signLoop_succ (H : Hashes) (debug : Bool) (d m fuel : Nat) (D : Drbg) :
    signLoop H debug d m (fuel + 1) D =
      (turn debug d m (cand H D 0)).or (signLoop H debug d m fuel (D.generate H).2) := by
  have h : cand H D 0 = beNat (D.generate H).1.1 := rfl
  rw [h, signLoop, turn]
  simp only
  split
  · split <;> simp_all
  · rfl

theorem signLoop_iff (H : Hashes) (debug : Bool) (d m fuel : Nat) (D : Drbg) (res : Res Error RawSig) :
    signLoop H debug d m fuel D = some res ↔
      ∃ j < fuel, (∀ i < j, turn debug d m (cand H D i) = none) ∧ turn debug d m (cand H D j) = some res := by
  induction fuel generalizing D with
  | zero => simp [signLoop]
  | succ fuel ih =>
    rw [signLoop_succ]
    cases h : turn debug d m (cand H D 0) with
    | some a =>
      rw [Option.some_or]
      constructor
      · intro h'
        exact ⟨0, by omega, fun i hi => absurd hi (by omega), h.trans h'⟩
      · rintro ⟨j, _, h1, h2⟩
        rcases Nat.eq_zero_or_pos j with rfl | hj
        · rw [← h, h2]
        · rw [h1 0 hj] at h; cases h
    | none =>
      rw [Option.none_or, ih]
      constructor
      · rintro ⟨j, hj, h1, h2⟩
        refine ⟨j + 1, by omega, ?_, by rw [cand_succ]; exact h2⟩
        intro i hi
        cases i with
        | zero => exact h
        | succ i => rw [cand_succ]; exact h1 i (by omega)
      · rintro ⟨j, hj, h1, h2⟩
        cases j with
        | zero => rw [h] at h2; cases h2
        | succ j =>
          refine ⟨j, by omega, ?_, by rw [← cand_succ]; exact h2⟩
          intro i hi
          rw [← cand_succ]
          exact h1 (i + 1) (by omega)

/-- The turn in terms of the specification. -/
theorem turn_cases (debug : Bool) (d m k : Nat) :
    ((k = 0 ∨ n ≤ k) ∧ turn debug d m k = none) ∨
    ((0 < k ∧ k < n) ∧ ∃ x y, HasCoords (k • Spec.Secp.G) x y ∧
      (((debug = true ∧ n ≤ x) ∧ turn debug d m k = some .panic) ∨
       (¬ (debug = true ∧ n ≤ x) ∧ n ∣ m + x % n * d ∧ turn debug d m k = none) ∨
       (¬ (debug = true ∧ n ≤ x) ∧ ¬ n ∣ m + x % n * d ∧ ∃ s v, turn debug d m k = some (.ok (x % n, s, v)) ∧
          Signature d m k (x % n) s v))) := by
  by_cases hk : 0 < k ∧ k < n
  · right
    refine ⟨hk, ?_⟩
    have hc := nonce_coords hk.1 hk.2
    refine ⟨_, _, hc, ?_⟩
    have hx0 : ∀ {x y}, HasCoords (k • Spec.Secp.G) x y → ((x % n = 0 ∨ n ≤ x) ↔ n ≤ x) := by
      intro x y h
      refine ⟨fun h' => ?_, Or.inr⟩
      rcases h' with h' | h'
      · by_contra hlt
        rw [Nat.mod_eq_of_lt (by omega)] at h'
        subst h'
        exact x_ne_zero h
      · exact h'
    have := signRaw_cases debug (d := d) (m := m) hk.1 hk.2 hc
    rw [hx0 hc] at this
    have ht : turn debug d m k = match signRaw debug d m k with
        | .ok val => some (.ok val)
        | .panic => some .panic
        | .err _ => none := if_pos ⟨hk.2, by omega⟩
    rw [ht]
    rcases this with ⟨h1, h2⟩ | ⟨h1, h2, h3⟩ | ⟨h1, h2, s, v, h3, h4⟩
    · left; exact ⟨h1, by rw [h2]⟩
    · right; left; exact ⟨h1, h2, by rw [h3]⟩
    · right; right; exact ⟨h1, h2, s, v, by rw [h3], h4⟩
  · left
    exact ⟨by omega, if_neg (by omega)⟩

end Kms.Secp

namespace Kms
open Spec.Ecdsa

theorem hmacSha256_spec (H : Hashes) (key msg : Bytes) :
    (H.hmacSha256 key msg).1 = hmac64 (fun b => (H.sha256 b).1) key msg := by
  unfold Hashes.hmacSha256 hmac64
  have hsw : (if key.length ≤ 64 then key else (H.sha256 key).1) =
      (if key.length > 64 then (H.sha256 key).1 else key) := by
    split <;> split <;> first | rfl | omega
  have hl : (if key.length > 64 then (H.sha256 key).1 else key).length ≤ 64 := by
    split
    · rw [(H.sha256 key).2]; decide
    · omega
  simp only [hsw]
  generalize (if key.length > 64 then (H.sha256 key).1 else key) = k at hl
  have hm : ∀ x : UInt8, (k ++ List.replicate (64 - k.length) 0).map (· ^^^ x) =
      (List.range 64).map (fun i => k.getD i 0 ^^^ x) := by
    intro x
    apply List.ext_getElem
    · simp; omega
    · intro i h1 h2
      simp only [List.getElem_map, List.getElem_range]
      congr 1
      rw [List.getElem_append]
      split
      · rename_i h
        rw [List.getD_eq_getElem?_getD, List.getElem?_eq_getElem h, Option.getD_some]
      · rename_i h
        rw [List.getElem_replicate, List.getD_eq_getElem?_getD, List.getElem?_eq_none (by omega), Option.getD_none]
  simp only [hm]

/-- HMAC-SHA256 as a function on byte strings. -/
def mac (H : Hashes) : Bytes → Bytes → Bytes := hmac64 (fun b => (H.sha256 b).1)

theorem drbg_state (H : Hashes) (s : Secp.SecretKey) (h j : Nat) :
    let D := Secp.drbgAt H (Drbg.new H s.serialize.1 (natBE 32 (h % Secp.n)) []) j
    (D.k.1, D.v.1) = state (mac H) s.k h j := by
  induction j with
  | zero =>
    simp only [Secp.drbgAt, Drbg.new, Drbg.update, state, init, hmacSha256_spec, ser256_eq, Secp.SecretKey.serialize,
      zeroArr, mac, Option.getD_some, List.flatten_cons, List.flatten_nil, List.append_nil, List.append_assoc, Secp.n_eq]
  | succ j ih =>
    simp only [Secp.drbgAt, Drbg.generate, Drbg.update, Option.getD_none, List.flatten_nil, List.append_nil,
      hmacSha256_spec, state] at ih ⊢
    rw [← ih]
    rfl

theorem cand_eq (H : Hashes) (s : Secp.SecretKey) (h j : Nat) :
    Secp.cand H (Drbg.new H s.serialize.1 (natBE 32 (h % Secp.n)) []) j = candidate (mac H) s.k h j := by
  have := drbg_state H s h j
  unfold candidate Spec.Bip32.parse256
  rw [← this, bytesVal_eq]
  simp only [mac, ← hmacSha256_spec]
  rfl

end Kms
