import Verif.Proofs.Chance
import Verif.Spec.ChanceKeys
import Verif.Props.DerivationMore
import Verif.Props.Tweaks
/-
C101: how likely key derivation is to fail, and which keys it gives, when HMAC-SHA512 gives uniformly distributed bytes.
-/
namespace Kms.Props
open Kms.Bip32 Kms.Spec Kms.Spec.Bip32
open Kms.Spec.Secp (Point G n HasCoords)
open Kms.Secp (SecretKey)
open scoped ENNReal

/-! ### counting 64-byte strings by their halves -/

theorem count_halves (S : Set Nat) (hS : ∀ x ∈ S, x < 2 ^ 256) (T : Set Bytes) (hT : ∀ c ∈ T, c.length = 32) :
    {b : Bytes | b.length = 64 ∧ IL b ∈ S ∧ IR b ∈ T}.ncard = S.ncard * T.ncard := by
  rw [← Set.ncard_prod]
  apply Set.ncard_congr (fun b _ => (IL b, IR b))
  · rintro b ⟨_, h1, h2⟩
    exact ⟨h1, h2⟩
  · rintro a b ⟨ha, _⟩ ⟨hb, _⟩ h
    simp only [Prod.mk.injEq] at h
    obtain ⟨h1, h2⟩ := h
    unfold IL parse256 at h1
    rw [bytesVal_eq, bytesVal_eq] at h1
    unfold IR at h2
    have e1 := natBE_beNat (a.take 32)
    have e2 := natBE_beNat (b.take 32)
    rw [List.length_take, ha] at e1
    rw [List.length_take, hb, ← h1] at e2
    rw [← List.take_append_drop 32 a, ← List.take_append_drop 32 b, h2, ← e1, ← e2]
  · rintro ⟨v, c⟩ ⟨hv, hc⟩
    have h1 : (natBE 32 v ++ c).take 32 = natBE 32 v := List.take_left' (by simp)
    have h2 : (natBE 32 v ++ c).drop 32 = c := List.drop_left' (by simp)
    have h3 : IL (natBE 32 v ++ c) = v := by
      unfold IL parse256
      rw [bytesVal_eq, h1, beNat_natBE]
      exact Nat.mod_eq_of_lt (Nat.lt_of_lt_of_le (hS v hv) (by decide))
    refine ⟨natBE 32 v ++ c, ⟨by simp [hT c hc], ?_, ?_⟩, ?_⟩
    · rw [h3]; exact hv
    · show (natBE 32 v ++ c).drop 32 ∈ T
      rw [h2]; exact hc
    · show (IL (natBE 32 v ++ c), (natBE 32 v ++ c).drop 32) = (v, c)
      rw [h3, h2]

theorem IL_lt (b : Bytes) : IL b < 2 ^ 256 := by
  unfold IL parse256
  rw [bytesVal_eq]
  refine Nat.lt_of_lt_of_le (beNat_lt _) ?_
  rw [show (2 : Nat) ^ 256 = 256 ^ 32 by norm_num]
  exact Nat.pow_le_pow_right (by decide) (by simp)

/-- The probability that the left half is in a set of numbers. -/
theorem left_chance {α : Type} {P : PMF α} {f : α → Bytes} (h : UniformBytes P 64 f) (hn : ∀ a, (f a).length = 64)
    (S : Set Nat) (hS : ∀ x ∈ S, x < 2 ^ 256) :
    chance P (fun a => IL (f a) ∈ S) = (S.ncard : ℝ≥0∞) * (2 ^ 256 : ℝ≥0∞)⁻¹ := by
  rw [uniform_chance h hn (fun b => IL b ∈ S)]
  have : {b : Bytes | b.length = 64 ∧ IL b ∈ S} = {b : Bytes | b.length = 64 ∧ IL b ∈ S ∧ IR b ∈ {c : Bytes | c.length = 32}} := by
    ext b
    constructor
    · rintro ⟨h1, h2⟩
      exact ⟨h1, h2, by show (b.drop 32).length = 32; rw [List.length_drop, h1]⟩
    · rintro ⟨h1, h2, _⟩
      exact ⟨h1, h2⟩
  rw [this, count_halves S hS {c : Bytes | c.length = 32} (fun c hc => hc), ncard_bytes]
  rw [show (256 : Nat) ^ 32 = 2 ^ 256 by norm_num, show 8 * 64 = 256 + 256 by norm_num, pow_add,
    ENNReal.mul_inv (by simp) (by simp), Nat.cast_mul, Nat.cast_pow, Nat.cast_ofNat, mul_assoc, ← mul_assoc (2 ^ 256 : ℝ≥0∞),
    ENNReal.mul_inv_cancel (by simp) (by simp), one_mul]

/-- The probability of one value of both halves. -/
theorem both_chance {α : Type} {P : PMF α} {f : α → Bytes} (h : UniformBytes P 64 f) (hn : ∀ a, (f a).length = 64)
    (v : Nat) (hv : v < 2 ^ 256) (c : Bytes) (hc : c.length = 32) :
    chance P (fun a => IL (f a) = v ∧ IR (f a) = c) = (2 ^ 512 : ℝ≥0∞)⁻¹ := by
  rw [uniform_chance h hn (fun b => IL b = v ∧ IR b = c)]
  have := count_halves {v} (by rintro x rfl; exact hv) {c} (by rintro x rfl; exact hc)
  simp only [Set.mem_singleton_iff, Set.ncard_singleton] at this
  rw [this]
  simp

/-- The numbers that are no private key. -/
theorem bad_ncard : {v : Nat | v < 2 ^ 256 ∧ (v = 0 ∨ n ≤ v)}.ncard = 2 ^ 256 - (n - 1) := by
  have : {v : Nat | v < 2 ^ 256 ∧ (v = 0 ∨ n ≤ v)} = ((Finset.range (2 ^ 256) \ Finset.Ioo 0 n : Finset Nat) : Set Nat) := by
    ext v
    simp only [Set.mem_ofPred_eq, Finset.coe_sdiff, Set.mem_sdiff, Finset.mem_coe, Finset.mem_range, Finset.mem_Ioo]
    omega
  rw [this, Set.ncard_coe_finset, Finset.card_sdiff_of_subset, Finset.card_range, Nat.card_Ioo]
  · rfl
  · intro v hv
    rw [Finset.mem_Ioo] at hv
    rw [Finset.mem_range]
    exact Nat.lt_trans hv.2 (by decide)

theorem bad_chance {α : Type} {P : PMF α} {f : α → Bytes} (h : UniformBytes P 64 f) (hn : ∀ a, (f a).length = 64) :
    chance P (fun a => IL (f a) = 0 ∨ n ≤ IL (f a)) = ((2 ^ 256 - (n - 1) : Nat) : ℝ≥0∞) * (2 ^ 256 : ℝ≥0∞)⁻¹ := by
  rw [← bad_ncard, ← left_chance h hn _ (fun x hx => hx.1)]
  exact chance_congr P fun a => ⟨fun h => ⟨IL_lt _, h⟩, fun h => h.2⟩

theorem one_chance {α : Type} {P : PMF α} {f : α → Bytes} (h : UniformBytes P 64 f) (hn : ∀ a, (f a).length = 64)
    (v : Nat) (hv : v < 2 ^ 256) : chance P (fun a => IL (f a) = v) = (2 ^ 256 : ℝ≥0∞)⁻¹ := by
  have := left_chance h hn {v} (by rintro x rfl; exact hv)
  rw [Set.ncard_singleton, Nat.cast_one, one_mul] at this
  exact this

theorem I_length (H : Hashes) (chain : Bytes) (k i : Nat) : (I (specHash H) chain k i).length = 64 := by
  show (H.sha512 _).1.length = 64
  exact (H.sha512 _).2

theorem master_length (H : Hashes) (seed : Bytes) : (master (specHash H) seed).length = 64 := by
  show (H.sha512 _).1.length = 64
  exact (H.sha512 _).2

theorem secret_ext {s t : SecretKey} (h : s.k = t.k) : s = t := by
  cases s; cases t; cases h; rfl

/-- The chance that 32 uniform bytes are no private key: less than 2^-127. -/
theorem bad_bound : ((2 ^ 256 - (n - 1) : Nat) : ℝ≥0∞) * (2 ^ 256 : ℝ≥0∞)⁻¹ < (2 ^ 127 : ℝ≥0∞)⁻¹ := by
  have h1 : ((2 ^ 256 - (n - 1) : Nat) : ℝ≥0∞) < 2 ^ 129 := by
    have : (2 ^ 256 - (n - 1) : Nat) < 2 ^ 129 := by decide
    exact_mod_cast this
  have h2 : (2 ^ 129 : ℝ≥0∞) * (2 ^ 256 : ℝ≥0∞)⁻¹ = (2 ^ 127 : ℝ≥0∞)⁻¹ := by
    rw [show (256 : Nat) = 129 + 127 by norm_num, pow_add, ENNReal.mul_inv (by simp) (by simp), ← mul_assoc,
      ENNReal.mul_inv_cancel (by simp) (by simp), one_mul]
  rw [← h2]
  exact ENNReal.mul_lt_mul_left (by simp) (by simp) h1

/-- **C101** With uniform HMAC output, `XPrv::new` refuses a seed of an accepted length with probability
`(2^256 − n + 1)/2^256`, below `2^-127`; every private key and chain code together are the result with probability
`2^-512`. -/
theorem C101_master_key (R : PMF Hashes) (seed : Bytes) (hs : seed.length ∈ [16, 32, 64, 128])
    (hR : UniformBytes R 64 (fun H => master (specHash H) seed)) :
    chance R (fun H => XPrv.new H seed = .err .crypto) = ((2 ^ 256 - (n - 1) : Nat) : ℝ≥0∞) * (2 ^ 256 : ℝ≥0∞)⁻¹ ∧
    chance R (fun H => ¬ ∃ x, XPrv.new H seed = .ok x) < (2 ^ 127 : ℝ≥0∞)⁻¹ ∧
    ∀ (sk : SecretKey) (c : ByteArr 32),
      chance R (fun H => ∃ x, XPrv.new H seed = .ok x ∧ x.privateKey = sk ∧ x.attrs.chainCode = c) = (2 ^ 512 : ℝ≥0∞)⁻¹ := by
  have key : chance R (fun H => XPrv.new H seed = .err .crypto) =
      ((2 ^ 256 - (n - 1) : Nat) : ℝ≥0∞) * (2 ^ 256 : ℝ≥0∞)⁻¹ := by
    rw [← bad_chance hR (fun H => master_length H seed)]
    refine chance_congr R fun H => ?_
    rw [(C36_master_key H seed).2.1]
    exact ⟨fun h => h.2, fun h => ⟨hs, h⟩⟩
  refine ⟨key, ?_, ?_⟩
  · refine lt_of_le_of_lt (chance_mono R fun H h => ?_) (key ▸ bad_bound)
    rcases (C36_master_key H seed).2.2.2 with h1 | h1 | h1
    · exact absurd h1 h
    · exact absurd hs ((C36_master_key H seed).1.1 h1)
    · exact h1
  · intro sk c
    rw [← both_chance hR (fun H => master_length H seed) sk.k (Nat.lt_trans sk.lt (by decide)) c.1 c.2]
    refine chance_congr R fun H => ?_
    have h3 := (C36_master_key H seed).2.2.1
    constructor
    · rintro ⟨x, h1, rfl, rfl⟩
      obtain ⟨_, _, _, h4, h5, _⟩ := (h3 x).1 h1
      exact ⟨h4.symm, h5.symm⟩
    · rintro ⟨h1, h2⟩
      refine ⟨⟨sk, ⟨0, zeroArr 4, ⟨0⟩, c⟩⟩, (h3 _).2 ⟨hs, ?_, ?_, h1.symm, h2.symm, rfl, rfl, rfl⟩, rfl, rfl⟩
      · rw [h1]; exact sk.pos
      · rw [h1]; exact sk.lt

/-- Which left half leads from one private key to another. -/
theorem step_value (s u : SecretKey) (h : u ≠ s) :
    ∃ v, 0 < v ∧ v < n ∧ ∀ w, w < n → ((w + s.k) % n = u.k ↔ w = v) := by
  obtain ⟨t, ht⟩ := tweak_value s u h
  rcases SecretKey.tweakAdd_cases s t with ⟨v, hv, hk⟩ | ⟨hv, _⟩ <;> rw [ht] at hv <;>
    simp only [Res.ok.injEq, reduceCtorEq] at hv
  subst hv
  refine ⟨t.k, t.pos, t.lt, fun w hw => ⟨fun e => ?_, ?_⟩⟩
  · rw [hk, Nat.add_comm] at e
    exact mod_cancel hw t.lt e
  · rintro rfl
    rw [Nat.add_comm]
    exact hk.symm

/-- **C101** With uniform HMAC output, `derive_child` of a private key of depth below 255 panics with probability
`(2^256 − n + 1)/2^256`, below `2^-127`, and fails with the error `Crypto` with probability `2^-256`.  Every other private
key with every chain code is the child with probability `2^-512`; the parent's own key never is. -/
theorem C101_private_child (R : PMF Hashes) (k : XPrv) (i : ChildNumber) (hd : k.attrs.depth.toNat < 255)
    (hR : UniformBytes R 64 (fun H => I (specHash H) k.attrs.chainCode.1 k.privateKey.k i.n.toNat)) :
    chance R (fun H => k.deriveChild H i = .panic) = ((2 ^ 256 - (n - 1) : Nat) : ℝ≥0∞) * (2 ^ 256 : ℝ≥0∞)⁻¹ ∧
    chance R (fun H => k.deriveChild H i = .panic) < (2 ^ 127 : ℝ≥0∞)⁻¹ ∧
    chance R (fun H => k.deriveChild H i = .err .crypto) = (2 ^ 256 : ℝ≥0∞)⁻¹ ∧
    (∀ sk c, sk ≠ k.privateKey →
      chance R (fun H => ∃ x, k.deriveChild H i = .ok x ∧ x.privateKey = sk ∧ x.attrs.chainCode = c) =
        (2 ^ 512 : ℝ≥0∞)⁻¹) ∧
    (∀ H x, k.deriveChild H i = .ok x → x.privateKey ≠ k.privateKey) := by
  have hlen := fun H => I_length H k.attrs.chainCode.1 k.privateKey.k i.n.toNat
  have hp : chance R (fun H => k.deriveChild H i = .panic) = ((2 ^ 256 - (n - 1) : Nat) : ℝ≥0∞) * (2 ^ 256 : ℝ≥0∞)⁻¹ := by
    rw [← bad_chance hR hlen]
    exact chance_congr R fun H => ((C35_derive_child_outcome_partial H k i).1).trans ⟨fun h => h.2, fun h => ⟨hd, h⟩⟩
  have hk0 := k.privateKey.pos
  have hkn : k.privateKey.k < n := k.privateKey.lt
  refine ⟨hp, hp ▸ bad_bound, ?_, ?_, ?_⟩
  · rw [← one_chance hR hlen (n - k.privateKey.k) (Nat.lt_of_le_of_lt (Nat.sub_le _ _) (by decide))]
    refine chance_congr R fun H => ((C35_derive_child_outcome_partial H k i).2 .crypto).trans ?_
    have hz : ∀ w, 0 < w → w < n → ((w + k.privateKey.k) % n = 0 ↔ w = n - k.privateKey.k) := by
      intro w h0 hw
      constructor
      · intro h
        have h1 := Nat.dvd_of_mod_eq_zero h
        obtain ⟨q, hq⟩ := h1
        have : q = 1 := by
          rcases q with _ | _ | q
          · omega
          · rfl
          · have : n * (q + 1 + 1) = n * q + 2 * n := by ring
            have := Nat.zero_le (n * q)
            omega
        subst this
        omega
      · rintro rfl
        rw [Nat.sub_add_cancel hkn.le, Nat.mod_self]
    constructor
    · rintro (⟨h, _⟩ | ⟨_, h0, h1, h2, _⟩)
      · omega
      · exact (hz _ h0 h1).1 h2
    · intro h
      right
      have h0 : 0 < n - k.privateKey.k := by omega
      have h1 : n - k.privateKey.k < n := by omega
      exact ⟨hd, h ▸ h0, h ▸ h1, (hz _ (h ▸ h0) (h ▸ h1)).2 h, rfl⟩
  · intro sk c hne
    obtain ⟨v, hv0, hv, hiff⟩ := step_value k.privateKey sk hne
    rw [← both_chance hR hlen v (Nat.lt_trans hv (by decide)) c.1 c.2]
    refine chance_congr R fun H => ?_
    rcases xprv_outcome H k i with ⟨h1, _⟩ | ⟨_, h1, h2⟩ | ⟨_, h1, h2, h3⟩ | ⟨_, h1, h2, x, h3, h4, h5, _⟩
    · omega
    · rw [h2]
      simp only [reduceCtorEq, false_and, exists_false, false_iff]
      rintro ⟨rfl, _⟩
      omega
    · rw [h3]
      simp only [reduceCtorEq, false_and, exists_false, false_iff]
      rintro ⟨h, _⟩
      rw [(hiff _ h1.2).2 h] at h2
      have := sk.pos
      omega
    · rw [h3]
      constructor
      · rintro ⟨y, h6, rfl, rfl⟩
        cases h6
        exact ⟨(hiff _ h1.2).1 h4.symm, h5.symm⟩
      · rintro ⟨h6, h7⟩
        exact ⟨x, rfl, secret_ext (h4.trans ((hiff _ h1.2).2 h6)), Subtype.ext (h5.trans h7)⟩
  · intro H x h e
    rcases xprv_outcome H k i with ⟨_, h'⟩ | ⟨_, _, h'⟩ | ⟨_, _, _, h'⟩ | ⟨_, h1, h2, y, h', h4, _⟩ <;> rw [h] at h' <;> cases h'
    rw [e] at h4
    have h5 : (k.privateKey.k + IL (I (specHash H) k.attrs.chainCode.1 k.privateKey.k i.n.toNat)) % n = (k.privateKey.k + 0) % n := by
      rw [Nat.add_comm, ← h4, Nat.add_zero, Nat.mod_eq_of_lt hkn]
    have := mod_cancel h1.2 (Nat.lt_trans hk0 hkn) h5
    omega

theorem coords_point {P Q : Point} {x y : Nat} (hP : HasCoords P x y) (hQ : HasCoords Q x y) : P = Q := by
  match P, Q, hP, hQ with
  | .some a b _, .some a' b' _, hP, hQ =>
    have h1 : a = a' := ZMod.val_injective _ (hP.1.trans hQ.1.symm)
    have h2 : b = b' := ZMod.val_injective _ (hP.2.trans hQ.2.symm)
    subst h1 h2
    rfl

/-- **C101** The same for a public key and a number that is not hardened. -/
theorem C101_public_child (R : PMF Hashes) (k : XPub) (Q : Point) (hQ : HasCoords Q k.publicKey.x k.publicKey.y)
    (i : ChildNumber) (hi : i.n.toNat < 2 ^ 31) (hd : k.attrs.depth.toNat < 255)
    (hR : UniformBytes R 64 (fun H => Ipub (specHash H) k.attrs.chainCode.1 Q i.n.toNat)) :
    chance R (fun H => k.deriveChild H i = .panic) = ((2 ^ 256 - (n - 1) : Nat) : ℝ≥0∞) * (2 ^ 256 : ℝ≥0∞)⁻¹ ∧
    chance R (fun H => k.deriveChild H i = .panic) < (2 ^ 127 : ℝ≥0∞)⁻¹ ∧
    chance R (fun H => k.deriveChild H i = .err .crypto) = (2 ^ 256 : ℝ≥0∞)⁻¹ ∧
    (∀ (P : Point) (x y : Nat) (c : ByteArr 32), HasCoords P x y → P ≠ Q →
      chance R (fun H => ∃ u, k.deriveChild H i = .ok u ∧ u.publicKey.x = x ∧ u.publicKey.y = y ∧ u.attrs.chainCode = c) =
        (2 ^ 512 : ℝ≥0∞)⁻¹) ∧
    (∀ H u, k.deriveChild H i = .ok u → u.publicKey ≠ k.publicKey) := by
  obtain ⟨s, hs⟩ := Secp.exists_secret (Secp.valid_of_rep (Secp.rep_coords.2 hQ))
  let K : XPrv := ⟨s, k.attrs⟩
  have hK : K.publicKey = k := by
    show (⟨PrivateKey.publicKey s, k.attrs⟩ : XPub) = k
    rw [show PrivateKey.publicKey s = k.publicKey from hs]
  have hQs : Q = s.k • G := by
    have h1 := publicKey_coords K
    rw [hK] at h1
    exact coords_point hQ h1
  have hI : ∀ H, Ipub (specHash H) k.attrs.chainCode.1 Q i.n.toNat = I (specHash H) K.attrs.chainCode.1 K.privateKey.k i.n.toNat := by
    intro H
    unfold Ipub I data
    rw [if_neg (by omega), hQs]
  have hR' : UniformBytes R 64 (fun H => I (specHash H) K.attrs.chainCode.1 K.privateKey.k i.n.toNat) := by
    simpa only [hI] using hR
  have hst : ∀ H, k.deriveChild H i = (K.deriveChild H i).map XPrv.publicKey := by
    intro H
    rw [public_derive_child H K i hi, hK]
  obtain ⟨h1, h2, h3, h4, h5⟩ := C101_private_child R K i hd hR'
  have e1 : ∀ H, k.deriveChild H i = .panic ↔ K.deriveChild H i = .panic := by
    intro H; rw [hst]; cases K.deriveChild H i <;> simp
  have e2 : ∀ H, k.deriveChild H i = .err .crypto ↔ K.deriveChild H i = .err .crypto := by
    intro H; rw [hst]; cases K.deriveChild H i <;> simp
  refine ⟨?_, ?_, ?_, ?_, ?_⟩
  · rw [chance_congr R e1]; exact h1
  · rw [chance_congr R e1]; exact h2
  · rw [chance_congr R e2]; exact h3
  · intro P x y c hP hne
    obtain ⟨u, hu⟩ := Secp.exists_secret (Secp.valid_of_rep (P := ⟨x, y⟩) (Secp.rep_coords.2 hP))
    have hu' : PrivateKey.publicKey u = ⟨x, y⟩ := hu
    have hus : u ≠ s := by
      rintro rfl
      apply hne
      have h6 : (⟨x, y⟩ : Secp.PublicKey) = k.publicKey := hu.symm.trans hs
      rw [← h6] at hQ
      exact coords_point hP hQ
    rw [← h4 u c hus]
    refine chance_congr R fun H => ?_
    rw [hst]
    cases K.deriveChild H i with
    | ok z =>
      simp only [Res.map_ok, Res.ok.injEq]
      constructor
      · rintro ⟨_, rfl, hx, hy, hc⟩
        refine ⟨z, rfl, Secp.fromSecretKey_inj (?_ : PrivateKey.publicKey z.privateKey = PrivateKey.publicKey u), hc⟩
        rw [hu']
        show PrivateKey.publicKey z.privateKey = ⟨x, y⟩
        cases hx; cases hy; rfl
      · rintro ⟨_, rfl, hz, hc⟩
        refine ⟨_, rfl, ?_, ?_, hc⟩
        · show (PrivateKey.publicKey z.privateKey).x = x
          rw [hz, hu']
        · show (PrivateKey.publicKey z.privateKey).y = y
          rw [hz, hu']
    | err e => simp
    | panic => simp
  · intro H u hu he
    rw [hst] at hu
    cases hz : K.deriveChild H i with
    | ok z =>
      rw [hz] at hu
      simp only [Res.map_ok, Res.ok.injEq] at hu
      subst hu
      exact h5 H z hz (Secp.fromSecretKey_inj (he.trans hs.symm))
    | err e => rw [hz] at hu; simp at hu
    | panic => rw [hz] at hu; simp at hu

theorem chance_pure {α : Type} (a : α) (A : α → Prop) (h : ¬ A a) : chance (PMF.pure a) A = 0 := by
  unfold chance
  rw [PMF.toOuterMeasure_pure_apply]
  exact if_neg h

theorem chance_le_one {α : Type} (P : PMF α) (A : α → Prop) : chance P A ≤ 1 := by
  rw [← chance_true P (A := fun _ => True) (fun _ => trivial)]
  exact chance_mono P fun _ _ => trivial

/-- An event after a draw is at most as likely as a bad draw and the event after a good one. -/
theorem chance_bind_le {α β : Type} (P : PMF α) (f : α → PMF β) (A : β → Prop) (B : α → Prop) (ε : ℝ≥0∞)
    (h : ∀ a, ¬ B a → chance (f a) A ≤ ε) : chance (P.bind f) A ≤ chance P B + ε := by
  classical
  unfold chance
  rw [PMF.toOuterMeasure_bind_apply, PMF.toOuterMeasure_apply]
  calc ∑' a, P a * (f a).toOuterMeasure {b | A b}
      ≤ ∑' a, (({a | B a} : Set α).indicator P a + P a * ε) := by
        refine ENNReal.tsum_le_tsum fun a => ?_
        by_cases hB : B a
        · rw [Set.indicator_of_mem (show a ∈ {a | B a} from hB)]
          exact le_add_right ((mul_le_mul_right (chance_le_one (f a) A) _).trans (by rw [mul_one]))
        · rw [Set.indicator_of_notMem (show a ∉ {a | B a} from hB), zero_add]
          exact mul_le_mul_right (h a hB) _
    _ = (∑' a, ({a | B a} : Set α).indicator P a) + ε := by
        rw [ENNReal.tsum_add, ENNReal.tsum_mul_right, PMF.tsum_coe, one_mul]

/-- One step fails with probability at most 2^-127. -/
theorem step_fails (R : PMF Hashes) (k : XPrv) (i : ChildNumber) (hd : k.attrs.depth.toNat < 255)
    (hR : UniformBytes R 64 (fun H => I (specHash H) k.attrs.chainCode.1 k.privateKey.k i.n.toNat)) :
    chance R (fun H => ¬ ∃ x, k.deriveChild H i = .ok x) ≤ (2 ^ 127 : ℝ≥0∞)⁻¹ := by
  obtain ⟨h1, _, h3, _⟩ := C101_private_child R k i hd hR
  have hle : chance R (fun H => ¬ ∃ x, k.deriveChild H i = .ok x) ≤
      chance R (fun H => k.deriveChild H i = .panic) + chance R (fun H => k.deriveChild H i = .err .crypto) := by
    refine le_trans (chance_mono R (B := fun H => k.deriveChild H i = .panic ∨ k.deriveChild H i = .err .crypto) ?_)
      (MeasureTheory.measure_union_le _ _)
    intro H h
    rcases xprv_outcome H k i with ⟨h', _⟩ | ⟨_, _, h'⟩ | ⟨_, _, _, h'⟩ | ⟨_, _, _, x, h', _⟩
    · omega
    · exact .inl h'
    · exact .inr h'
    · exact absurd ⟨x, h'⟩ h
  refine hle.trans ?_
  have h4 : ((2 ^ 256 - (n - 1) : Nat) : ℝ≥0∞) + 1 ≤ 2 ^ 129 := by
    have : (2 ^ 256 - (n - 1) + 1 : Nat) ≤ 2 ^ 129 := by decide
    exact_mod_cast this
  have h2 : (2 ^ 129 : ℝ≥0∞) * (2 ^ 256 : ℝ≥0∞)⁻¹ = (2 ^ 127 : ℝ≥0∞)⁻¹ := by
    rw [show (256 : Nat) = 129 + 127 by norm_num, pow_add, ENNReal.mul_inv (by simp) (by simp), ← mul_assoc,
      ENNReal.mul_inv_cancel (by simp) (by simp), one_mul]
  rw [h1, h3, ← h2]
  calc ((2 ^ 256 - (n - 1) : Nat) : ℝ≥0∞) * (2 ^ 256 : ℝ≥0∞)⁻¹ + (2 ^ 256 : ℝ≥0∞)⁻¹
      = (((2 ^ 256 - (n - 1) : Nat) : ℝ≥0∞) + 1) * (2 ^ 256 : ℝ≥0∞)⁻¹ := by rw [add_mul, one_mul]
    _ ≤ _ := mul_le_mul_left h4 _

/-- **C101** If every step of a derivation gets a uniform HMAC output, a path that does not lead below depth 255 fails
with probability at most `length · 2^-127`.  With fixed hash functions the walk is `derive_from_path`. -/
theorem C101_path (R : PMF Hashes) (hR : ∀ chain k i, UniformBytes R 64 (fun H => I (specHash H) chain k i)) (k : XPrv)
    (p : DerivationPath) (hd : k.attrs.depth.toNat + p.iter.length ≤ 255) :
    chance (walk R k p.iter) (fun r => ¬ ∃ x, r = .ok x) ≤ p.iter.length * (2 ^ 127 : ℝ≥0∞)⁻¹ ∧
    ∀ H, walk (PMF.pure H) k p.iter = PMF.pure (k.deriveFromPath H p) := by
  generalize hl : p.iter = l at hd ⊢
  constructor
  · clear hl
    induction l generalizing k with
    | nil =>
      simp only [walk]
      rw [chance_pure _ _ (by simp)]
      exact zero_le
    | cons i l ih =>
      rw [List.length_cons] at hd
      have hstep := step_fails R k i (by omega) (hR _ _ _)
      simp only [walk]
      refine (chance_bind_le R _ _ (fun H => ¬ ∃ x, k.deriveChild H i = .ok x) (l.length * (2 ^ 127 : ℝ≥0∞)⁻¹) ?_).trans ?_
      · intro H hH
        obtain ⟨x, hx⟩ := not_not.1 hH
        rw [hx]
        refine ih x ?_
        rcases xprv_outcome H k i with ⟨_, h'⟩ | ⟨_, _, h'⟩ | ⟨_, _, _, h'⟩ | ⟨_, _, _, y, h', _, _, h5, _⟩ <;> rw [hx] at h' <;> cases h'
        omega
      · rw [List.length_cons, Nat.cast_add, Nat.cast_one, add_mul, one_mul, add_comm]
        exact add_le_add le_rfl hstep
  · intro H
    unfold XPrv.deriveFromPath
    rw [hl]
    clear hl hd
    induction l generalizing k with
    | nil => rfl
    | cons i l ih =>
      simp only [walk, PMF.pure_bind, List.foldl_cons, Res.ok_bind]
      rw [foldl_bind (fun (b : XPrv) a => b.deriveChild H a)]
      cases k.deriveChild H i with
      | ok c => exact ih c
      | err e => rfl
      | panic => rfl

/-- Such hash functions exist: a constant SHA-512 with uniform value. -/
theorem uniform_hashes : ∃ R : PMF Hashes, (∀ chain k i, UniformBytes R 64 (fun H => I (specHash H) chain k i)) ∧
    (∀ chain Q i, UniformBytes R 64 (fun H => Ipub (specHash H) chain Q i)) ∧
    ∀ seed, UniformBytes R 64 (fun H => master (specHash H) seed) := by
  obtain ⟨P, hP⟩ := uniform_exists 64
  refine ⟨P.map (fun b => ⟨fun _ => zeroArr 32, fun _ => b, fun _ => zeroArr 20⟩), ?_, ?_, ?_⟩
  all_goals
    intros
    intro b hb
    rw [chance_map]
    exact hP b hb

-- the account path m/44'/0'/0'/0/0 of a fresh key
example : ∃ R : PMF Hashes, chance (walk R exKey [⟨0x8000002C⟩, ⟨0x80000000⟩, ⟨0x80000000⟩, ⟨0⟩, ⟨0⟩]) (fun r => ¬ ∃ x, r = .ok x) ≤
    5 * (2 ^ 127 : ℝ≥0∞)⁻¹ := by
  obtain ⟨R, h, _, _⟩ := uniform_hashes
  exact ⟨R, (C101_path R h exKey ⟨[⟨0x8000002C⟩, ⟨0x80000000⟩, ⟨0x80000000⟩, ⟨0⟩, ⟨0⟩]⟩ (by decide)).1⟩

-- a seed of 32 bytes gives the private key 1 with chain code 0 with probability 2^-512
example : ∃ R : PMF Hashes, chance R (fun H => ∃ x, XPrv.new H (List.replicate 32 5) = .ok x ∧ x.privateKey = ⟨1, by decide, by decide⟩ ∧
    x.attrs.chainCode = zeroArr 32) = (2 ^ 512 : ℝ≥0∞)⁻¹ := by
  obtain ⟨R, _, _, h⟩ := uniform_hashes
  exact ⟨R, (C101_master_key R _ (by decide) (h _)).2.2 _ _⟩

-- a public key of depth 0
example : ∃ R : PMF Hashes, chance R (fun H => exKey.publicKey.deriveChild H ⟨7⟩ = .err .crypto) = (2 ^ 256 : ℝ≥0∞)⁻¹ := by
  obtain ⟨R, _, h, _⟩ := uniform_hashes
  exact ⟨R, (C101_public_child R exKey.publicKey _ (publicKey_coords exKey) ⟨7⟩ (by decide) (by decide) (h _ _ _)).2.2.1⟩

end Kms.Props
