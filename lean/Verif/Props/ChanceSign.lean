import Verif.Proofs.Chance
import Verif.Props.Ecdsa
import Verif.Props.ChanceKeys
/-
C102: how likely the first nonce of a signature is to be useless.
-/
namespace Kms.Props
open Kms.Spec Kms.Spec.Bip32 Kms.Spec.Ecdsa
open Kms.Spec.Secp (Point G n p HasCoords)
open Kms.Secp (SecretKey)
open scoped ENNReal

/-- Two nonces whose points agree in x and in the parity of y are the same. -/
theorem nonce_unique {k k' x y y' : Nat} (hk : k < n) (hk' : k' < n) (h : HasCoords (k • G) x y) (h' : HasCoords (k' • G) x y')
    (hy : y % 2 = y' % 2) : k = k' := by
  have e : k • G = k' • G := by
    revert h h'
    generalize k • G = P
    generalize k' • G = P'
    intro h h'
    match P, h, P', h' with
    | .some a b hab, hc, .some a' b' hab', hc' =>
      have ha : a = a' := ZMod.val_injective _ (hc.1.trans hc'.1.symm)
      subst ha
      have hb : b = b' := by
        refine Secp.y_unique ((Spec.Secp.nonsingular_iff _ _).1 hab) ((Spec.Secp.nonsingular_iff _ _).1 hab') ?_
        rw [hc.2, hc'.2, hy]
      subst hb
      rfl
  rw [Secp.smul_G_inj] at e
  have h1 : k % n = k' % n := e
  rwa [Nat.mod_eq_of_lt hk, Nat.mod_eq_of_lt hk'] at h1

/-- The nonces whose point has its x coordinate in a set: at most two for each. -/
theorem nonces_le (X : Set Nat) (hX : X.Finite) :
    {k | k < n ∧ ∃ x ∈ X, ∃ y, HasCoords (k • G) x y}.Finite ∧
    {k | k < n ∧ ∃ x ∈ X, ∃ y, HasCoords (k • G) x y}.ncard ≤ 2 * X.ncard := by
  classical
  have hex : ∀ k, (k < n ∧ ∃ x ∈ X, ∃ y, HasCoords (k • G) x y) → ∃ q : Nat × Nat, q.1 ∈ X ∧ ∃ y, HasCoords (k • G) q.1 y ∧ q.2 = y % 2 := by
    rintro k ⟨_, x, hx, y, hy⟩
    exact ⟨(x, y % 2), hx, y, hy, rfl⟩
  let f : Nat → Nat × Nat := fun k =>
    if h : k < n ∧ ∃ x ∈ X, ∃ y, HasCoords (k • G) x y then Classical.choose (hex k h) else (0, 0)
  have hf : ∀ k (h : k < n ∧ ∃ x ∈ X, ∃ y, HasCoords (k • G) x y), (f k).1 ∈ X ∧ ∃ y, HasCoords (k • G) (f k).1 y ∧ (f k).2 = y % 2 := by
    intro k h
    simp only [f, dif_pos h]
    exact Classical.choose_spec (hex k h)
  have hmaps : ∀ k ∈ {k | k < n ∧ ∃ x ∈ X, ∃ y, HasCoords (k • G) x y}, f k ∈ X ×ˢ ({0, 1} : Set Nat) := by
    intro k hk
    obtain ⟨h1, y, _, h2⟩ := hf k hk
    refine ⟨h1, ?_⟩
    show (f k).2 = 0 ∨ (f k).2 = 1
    omega
  have hinj : Set.InjOn f {k | k < n ∧ ∃ x ∈ X, ∃ y, HasCoords (k • G) x y} := by
    intro k hk k' hk' e
    obtain ⟨_, y, h1, h2⟩ := hf k hk
    obtain ⟨_, y', h1', h2'⟩ := hf k' hk'
    rw [← e] at h1' h2'
    exact nonce_unique hk.1 hk'.1 h1 h1' (h2.symm.trans h2')
  have hfin : (X ×ˢ ({0, 1} : Set Nat)).Finite := hX.prod (Set.toFinite _)
  refine ⟨Set.Finite.of_injOn hmaps hinj hfin, ?_⟩
  refine (Set.ncard_le_ncard_of_injOn f hmaps hinj hfin).trans ?_
  rw [Set.ncard_prod, Set.ncard_pair (by decide), Nat.mul_comm]

/-- The two nonces whose point has x coordinate n. -/
theorem zero_nonces : ∃ k₀, 0 < k₀ ∧ k₀ < n ∧ k₀ ≠ n - k₀ ∧
    ∀ k, k < n → ((∃ y, HasCoords (k • G) n y) ↔ k = k₀ ∨ k = n - k₀) := by
  obtain ⟨k, hk0, hk, y, hc⟩ := point_n
  have hneg : HasCoords ((n - k) • G) n (p - y) := by
    have := Secp.coords_neg hc
    rw [← Secp.smul_neg_G hk] at this
    exact this
  have hy := (Secp.coords_lt hc).2
  have hp : p % 2 = 1 := by decide
  have hyp : y < p := hy.1
  refine ⟨k, hk0, hk, ?_, fun k' hk' => ⟨?_, ?_⟩⟩
  · intro e
    have : n % 2 = 1 := by decide
    omega
  · rintro ⟨y', hc'⟩
    by_cases h : y' % 2 = y % 2
    · exact .inl (nonce_unique hk' hk hc' hc h)
    · refine .inr (nonce_unique hk' (by omega) hc' hneg ?_)
      omega
  · rintro (rfl | rfl)
    · exact ⟨y, hc⟩
    · exact ⟨_, hneg⟩

theorem x_zero_iff {k x y : Nat} (h : HasCoords (k • G) x y) : x % n = 0 ↔ x = n := by
  have h1 := (Secp.coords_lt h).1
  have h2 : Secp.p < 2 * n := Secp.p_lt_two_n
  constructor
  · intro h0
    by_cases hx : x < n
    · rw [Nat.mod_eq_of_lt hx] at h0
      subst h0
      exact absurd h Secp.x_ne_zero
    · rw [Nat.mod_eq_sub_mod (by omega), Nat.mod_eq_of_lt (by omega)] at h0
      omega
  · rintro rfl
    exact Nat.mod_self _

theorem ser256_val {v : Nat} (h : v < 2 ^ 256) : bytesVal (ser256 v) = v := by
  rw [Kms.ser256_eq, bytesVal_eq, beNat_natBE]
  exact Nat.mod_eq_of_lt (Nat.lt_of_lt_of_le h (by decide))

/-- **C102** Only two nonces give a signature with r = 0, the same two, each the negative of the other, for every key and
message: a signature that `ecdsa_sign` returns in a release build has r = 0 exactly if the first usable candidate of
RFC 6979 is one of them. -/
theorem C102_two_bad_nonces : ∃ k₀, 0 < k₀ ∧ k₀ < n ∧ k₀ ≠ n - k₀ ∧
    ∀ (H : Hashes) (fuel : Nat) (sk : SecretKey) (msg : Bytes) (sig : ByteArr 64) (v : UInt8),
      ecdsaSign H false fuel sk msg = some (.ok (sig, v)) →
      ∃ j, (∀ i < j, Unusable sk.k (bytesVal msg) (candidate (mac H) sk.k (bytesVal msg) i)) ∧
        ¬ Unusable sk.k (bytesVal msg) (candidate (mac H) sk.k (bytesVal msg) j) ∧
        ((∃ s, sig.1 = ser256 0 ++ ser256 s) ↔
          candidate (mac H) sk.k (bytesVal msg) j = k₀ ∨ candidate (mac H) sk.k (bytesVal msg) j = n - k₀) := by
  obtain ⟨k₀, h0, h1, h2, h3⟩ := zero_nonces
  refine ⟨k₀, h0, h1, h2, ?_⟩
  intro H fuel sk msg sig v hsig
  have hl : msg.length = 32 := by
    by_contra hl
    rw [(C51_input_length H false fuel sk msg).2 hl] at hsig
    cases hsig
  obtain ⟨j, _, hj, hu, r, s, he, hs⟩ := ((C61_rfc6979 H sk msg hl).1 fuel sig v).1 hsig
  refine ⟨j, hj, hu, ?_⟩
  generalize candidate (mac H) sk.k (bytesVal msg) j = k at hu hs
  have hk0 : k ≠ 0 := fun e => hu (.inl e)
  have hkn : k < n := by
    by_contra h
    exact hu (.inr (.inl (by omega)))
  have hb := sig_bounds hs
  obtain ⟨hs0, _, k', x, y, hk', hc, hr, _⟩ := hs
  have hkn' : k' < n := by omega
  have e1 : (∃ s, sig.1 = ser256 0 ++ ser256 s) ↔ r = 0 := by
    rw [he]
    constructor
    · rintro ⟨t, ht⟩
      have := (List.append_inj ht (by simp [ser256])).1
      have h4 := congrArg bytesVal this
      rw [ser256_val (Nat.lt_trans hb.1 (by decide)), ser256_val (by decide)] at h4
      exact h4
    · rintro rfl
      exact ⟨s, rfl⟩
  rw [e1, hr, x_zero_iff hc]
  have e2 : x = n ↔ ∃ y, HasCoords (k' • G) n y := by
    constructor
    · rintro rfl
      exact ⟨y, hc⟩
    · rintro ⟨y', hc'⟩
      exact (Secp.coords_unique hc hc').1
  rw [e2, h3 k' hkn']
  omega

/-! ### probabilities -/

theorem count_values (S : Set Nat) (hS : ∀ x ∈ S, x < 2 ^ 256) : {b : Bytes | b.length = 32 ∧ parse256 b ∈ S}.ncard = S.ncard := by
  apply Set.ncard_congr (fun b _ => parse256 b)
  · exact fun b hb => hb.2
  · rintro a b ⟨ha, _⟩ ⟨hb, _⟩ h
    unfold parse256 at h
    rw [bytesVal_eq, bytesVal_eq] at h
    have e1 := natBE_beNat a
    have e2 := natBE_beNat b
    rw [ha] at e1
    rw [hb, ← h] at e2
    exact e1.symm.trans e2
  · intro x hx
    have h : parse256 (ser256 x) = x := ser256_val (hS x hx)
    exact ⟨ser256 x, ⟨by simp [ser256], by rw [h]; exact hx⟩, h⟩

theorem value_chance {α : Type} {P : PMF α} {f : α → Bytes} (h : UniformBytes P 32 f) (hn : ∀ a, (f a).length = 32)
    (S : Set Nat) (hS : ∀ x ∈ S, x < 2 ^ 256) :
    chance P (fun a => parse256 (f a) ∈ S) = (S.ncard : ℝ≥0∞) * (2 ^ 256 : ℝ≥0∞)⁻¹ := by
  rw [uniform_chance h hn (fun b => parse256 b ∈ S), count_values S hS]

/-- What the first attempt does is decided by the first candidate. -/
theorem first_attempt (H : Hashes) (debug : Bool) (sk : SecretKey) (msg : Bytes) (hl : msg.length = 32) (res) :
    ecdsaSign H debug 1 sk msg = some res ↔
      ∃ r, Secp.turn debug sk.k (bytesVal msg % n) (candidate (mac H) sk.k (bytesVal msg) 0) = some r ∧
        res = (r.mapErr .secp256k1Error).map fun (r, s, recid) => (Secp.serializeSig r s, UInt8.ofNat recid) := by
  rw [ecdsa_iff H debug 1 sk msg hl]
  constructor
  · rintro ⟨j, hj, _, h⟩
    have : j = 0 := by omega
    subst this
    exact h
  · intro h
    exact ⟨0, by omega, fun i hi => absurd hi (by omega), h⟩

/-- The x coordinates for which s would be 0: at most two. -/
theorem zero_s_ncard (sk : SecretKey) (m : Nat) : {x | x < p ∧ n ∣ m + x % n * sk.k}.Finite ∧
    {x | x < p ∧ n ∣ m + x % n * sk.k}.ncard ≤ 2 := by
  have hsub : {x | x < p ∧ n ∣ m + x % n * sk.k}.Finite := (Set.finite_lt_nat p).subset (fun x hx => hx.1)
  refine ⟨hsub, ?_⟩
  have : ({0, 1} : Set Nat).ncard = 2 := Set.ncard_pair (by decide)
  rw [← this]
  have hpn : p < 2 * n := by decide
  refine Set.ncard_le_ncard_of_injOn (fun x => x / n) ?_ ?_ (Set.toFinite _)
  · intro x hx
    have : x / n < 2 := (Nat.div_lt_iff_lt_mul (by decide)).2 (Nat.lt_trans hx.1 hpn)
    show x / n = 0 ∨ x / n = 1
    revert this
    generalize x / n = q
    omega
  · rintro x ⟨_, hx⟩ y ⟨_, hy⟩ (e : x / n = y / n)
    have h1 : x % n * sk.k ≡ y % n * sk.k [MOD n] := by
      have h2 : m + x % n * sk.k ≡ m + y % n * sk.k [MOD n] :=
        (Nat.modEq_zero_iff_dvd.2 hx).trans (Nat.modEq_zero_iff_dvd.2 hy).symm
      exact Nat.ModEq.add_left_cancel' m h2
    have hco : Nat.gcd n sk.k = 1 :=
      (Nat.Prime.coprime_iff_not_dvd Spec.Secp.n_prime).2 (Nat.not_dvd_of_pos_of_lt sk.pos sk.lt)
    have h3 := Nat.ModEq.cancel_right_of_coprime hco h1
    have h4 : x % n = y % n := by
      have : x % n % n = y % n % n := h3
      rwa [Nat.mod_mod, Nat.mod_mod] at this
    rw [← Nat.div_add_mod x n, ← Nat.div_add_mod y n, e, h4]

theorem candidate_length (H : Hashes) (K V : Bytes) : (mac H K V).length = 32 := by
  show (H.sha256 _).1.length = 32
  exact (H.sha256 _).2

/-- **C102** If the first HMAC output that RFC 6979 tries as a nonce is uniformly distributed then, for every private key
and 32-byte message: the first attempt of a release build gives r = 0 with probability `2 · 2^-256` (0 if the message is
a multiple of n, where such a nonce is passed over); the first attempt gives no signature with probability at most
`2^-127`; and a build with debug assertions panics in the first attempt with probability at most `2^-126`. -/
theorem C102_first_attempt (R : PMF Hashes) (sk : SecretKey) (msg : Bytes) (hl : msg.length = 32)
    (hR : UniformBytes R 32 (fun H => mac H (state (mac H) sk.k (bytesVal msg) 0).1 (state (mac H) sk.k (bytesVal msg) 0).2)) :
    chance R (fun H => ∃ sig v s, ecdsaSign H false 1 sk msg = some (.ok (sig, v)) ∧ sig.1 = ser256 0 ++ ser256 s) =
      (if bytesVal msg % n = 0 then 0 else 2 * (2 ^ 256 : ℝ≥0∞)⁻¹) ∧
    chance R (fun H => ecdsaSign H false 1 sk msg = none) ≤ (2 ^ 127 : ℝ≥0∞)⁻¹ ∧
    chance R (fun H => ecdsaSign H true 1 sk msg = some .panic) ≤ (2 ^ 126 : ℝ≥0∞)⁻¹ := by
  have hlen : ∀ H, (mac H (state (mac H) sk.k (bytesVal msg) 0).1 (state (mac H) sk.k (bytesVal msg) 0).2).length = 32 :=
    fun H => candidate_length H _ _
  have hval : ∀ (S : Set Nat), (∀ x ∈ S, x < 2 ^ 256) →
      chance R (fun H => candidate (mac H) sk.k (bytesVal msg) 0 ∈ S) = (S.ncard : ℝ≥0∞) * (2 ^ 256 : ℝ≥0∞)⁻¹ :=
    fun S hS => value_chance hR hlen S hS
  have hlt : ∀ H, candidate (mac H) sk.k (bytesVal msg) 0 < 2 ^ 256 := by
    intro H
    unfold candidate parse256
    rw [bytesVal_eq]
    refine Nat.lt_of_lt_of_le (beNat_lt _) ?_
    rw [hlen]
    decide
  have hn256 : n < 2 ^ 256 := by decide
  refine ⟨?_, ?_, ?_⟩
  · obtain ⟨k₀, h0, h1, h2, h3⟩ := zero_nonces
    have hset : ∀ H, (∃ sig v s, ecdsaSign H false 1 sk msg = some (.ok (sig, v)) ∧ sig.1 = ser256 0 ++ ser256 s) ↔
        candidate (mac H) sk.k (bytesVal msg) 0 ∈ (if bytesVal msg % n = 0 then ∅ else {k₀, n - k₀} : Set Nat) := by
      intro H
      have hfirst := first_attempt H false sk msg hl
      generalize candidate (mac H) sk.k (bytesVal msg) 0 = k at hfirst
      rcases Secp.turn_cases false sk.k (bytesVal msg % n) k with ⟨hk, ht⟩ | ⟨hk, x, y, hc, ht⟩
      · constructor
        · rintro ⟨sig, v, s, hs, _⟩
          obtain ⟨r, hr, _⟩ := (hfirst _).1 hs
          rw [ht] at hr; cases hr
        · intro hm
          exfalso
          split at hm
          · exact hm
          · have : n ≤ k ∨ k = 0 := hk.symm
            rcases hm with hm | hm
            · omega
            · have hm : k = n - k₀ := hm
              omega
      · have hkn : k < n := hk.2
        have hx := x_zero_iff hc
        have e2 : x = n ↔ k = k₀ ∨ k = n - k₀ := by
          rw [← h3 k hkn]
          constructor
          · rintro rfl
            exact ⟨y, hc⟩
          · rintro ⟨y', hc'⟩
            exact (Secp.coords_unique hc hc').1
        constructor
        · rintro ⟨sig, v, s, hs, hz⟩
          obtain ⟨r, hr, hres⟩ := (hfirst _).1 hs
          rcases ht with ⟨ht, _⟩ | ⟨_, _, ht⟩ | ⟨_, hnd, s', v', ht, _⟩
          · simp at ht
          · rw [ht] at hr; cases hr
          · rw [ht] at hr
            cases hr
            simp only [Res.mapErr_ok, Res.map_ok, Res.ok.injEq, Prod.mk.injEq] at hres
            rw [hres.1, serializeSig_eq] at hz
            have h4 := congrArg bytesVal (List.append_inj hz (by simp [ser256])).1
            rw [ser256_val (v := x % Secp.n) (Nat.lt_trans (Nat.mod_lt _ (by decide)) hn256), ser256_val (by decide)] at h4
            have h4' : x % n = 0 := h4
            have hm : bytesVal msg % n ≠ 0 := by
              intro hm
              apply hnd
              show n ∣ bytesVal msg % n + x % n * sk.k
              rw [hm, h4']
              simp
            rw [if_neg hm]
            exact e2.1 (hx.1 h4')
        · intro hm
          split at hm
          · exact hm.elim
          next hm0 =>
            have hxn : x = n := e2.2 hm
            rcases ht with ⟨ht, _⟩ | ⟨_, hdv, _⟩ | ⟨_, _, s', v', ht, _⟩
            · simp at ht
            · exfalso
              have hdv : n ∣ bytesVal msg % n + x % n * sk.k := hdv
              rw [hx.2 hxn, Nat.zero_mul, Nat.add_zero] at hdv
              have := Nat.le_of_dvd (by omega) hdv
              have := Nat.mod_lt (bytesVal msg) (show 0 < n by decide)
              omega
            · refine ⟨_, _, s', (hfirst _).2 ⟨_, ht, rfl⟩, ?_⟩
              rw [serializeSig_eq, show x % Secp.n = 0 from hx.2 hxn]
    rw [chance_congr R hset, hval]
    · split
      · simp
      · rw [Set.ncard_pair h2]
        norm_num
    · intro x hx
      split at hx
      · exact hx.elim
      · rcases hx with rfl | hx
        · omega
        · have : x = n - k₀ := hx
          omega
  · obtain ⟨f1, c1⟩ := zero_s_ncard sk (bytesVal msg)
    obtain ⟨f2, c2⟩ := nonces_le _ f1
    set A : Set Nat := {v : Nat | v < 2 ^ 256 ∧ (v = 0 ∨ n ≤ v)} with hA
    set B : Set Nat := {k | k < n ∧ ∃ x ∈ {x | x < p ∧ n ∣ bytesVal msg + x % n * sk.k}, ∃ y, HasCoords (k • G) x y} with hB
    have hcard : (A ∪ B).ncard ≤ 2 ^ 129 := by
      refine (Set.ncard_union_le A B).trans ?_
      rw [hA, bad_ncard]
      have : 2 ^ 256 - (n - 1) + 4 ≤ 2 ^ 129 := by decide
      omega
    have hmem : ∀ x ∈ A ∪ B, x < 2 ^ 256 := by
      rintro x (hx | hx)
      · exact hx.1
      · exact Nat.lt_trans hx.1 hn256
    refine (chance_mono R (B := fun H => candidate (mac H) sk.k (bytesVal msg) 0 ∈ A ∪ B) fun H h => ?_).trans ?_
    · have hfirst := first_attempt H false sk msg hl
      have hl256 := hlt H
      have hnone : Secp.turn false sk.k (bytesVal msg % n) (candidate (mac H) sk.k (bytesVal msg) 0) = none := by
        rcases ht : Secp.turn false sk.k (bytesVal msg % n) (candidate (mac H) sk.k (bytesVal msg) 0) with _ | r
        · rfl
        · have := (hfirst _).2 ⟨r, ht, rfl⟩
          rw [h] at this
          cases this
      rcases turn_release sk.k (bytesVal msg) (candidate (mac H) sk.k (bytesVal msg) 0) with ⟨_, hu⟩ | ⟨r, s, v, ht, _⟩
      · rcases hu with hu | hu | ⟨x, y, hc, hd⟩
        · exact .inl ⟨hl256, .inl hu⟩
        · exact .inl ⟨hl256, .inr hu⟩
        · by_cases hk : candidate (mac H) sk.k (bytesVal msg) 0 < n
          · exact .inr ⟨hk, x, ⟨(Secp.coords_lt hc).1, hd⟩, y, hc⟩
          · exact .inl ⟨hl256, .inr (by omega)⟩
      · rw [ht] at hnone
        cases hnone
    · rw [hval _ hmem]
      have h2 : (2 ^ 129 : ℝ≥0∞) * (2 ^ 256 : ℝ≥0∞)⁻¹ = (2 ^ 127 : ℝ≥0∞)⁻¹ := by
        rw [show (256 : Nat) = 129 + 127 by norm_num, pow_add, ENNReal.mul_inv (by simp) (by simp), ← mul_assoc,
          ENNReal.mul_inv_cancel (by simp) (by simp), one_mul]
      rw [← h2]
      exact mul_le_mul_left (by exact_mod_cast hcard) _
  · have f1 : (Set.Ico n p).Finite := Set.finite_Ico n p
    obtain ⟨f2, c2⟩ := nonces_le _ f1
    set B : Set Nat := {k | k < n ∧ ∃ x ∈ Set.Ico n p, ∃ y, HasCoords (k • G) x y} with hB
    have hcard : B.ncard ≤ 2 ^ 130 := by
      refine c2.trans ?_
      rw [← Finset.coe_Ico, Set.ncard_coe_finset, Nat.card_Ico]
      decide
    refine (chance_mono R (B := fun H => candidate (mac H) sk.k (bytesVal msg) 0 ∈ B) fun H h => ?_).trans ?_
    · obtain ⟨j, hj, _, _, hk, x, y, hc, hx⟩ := (C62_debug_build H 1 sk msg hl).2.1 h
      have : j = 0 := by omega
      subst this
      exact ⟨hk, x, ⟨hx, (Secp.coords_lt hc).1⟩, y, hc⟩
    · rw [hval _ (fun x hx => Nat.lt_trans hx.1 hn256)]
      have h2 : (2 ^ 130 : ℝ≥0∞) * (2 ^ 256 : ℝ≥0∞)⁻¹ = (2 ^ 126 : ℝ≥0∞)⁻¹ := by
        rw [show (256 : Nat) = 130 + 126 by norm_num, pow_add, ENNReal.mul_inv (by simp) (by simp), ← mul_assoc,
          ENNReal.mul_inv_cancel (by simp) (by simp), one_mul]
      rw [← h2]
      exact mul_le_mul_left (by exact_mod_cast hcard) _

-- such hash functions exist: a constant SHA-256 with uniform value; the message is 32 times the byte 1
example (sk : SecretKey) : ∃ R : PMF Hashes,
    chance R (fun H => ∃ sig v s, ecdsaSign H false 1 sk (List.replicate 32 1) = some (.ok (sig, v)) ∧ sig.1 = ser256 0 ++ ser256 s) =
      2 * (2 ^ 256 : ℝ≥0∞)⁻¹ := by
  obtain ⟨P, hP⟩ := uniform_exists 32
  refine ⟨P.map (fun b => ⟨fun _ => b, fun _ => zeroArr 64, fun _ => zeroArr 20⟩), ?_⟩
  refine ((C102_first_attempt _ sk (List.replicate 32 1) (by decide) ?_).1).trans (if_neg (by decide +kernel))
  intro b hb
  rw [chance_map]
  exact hP b hb

end Kms.Props
