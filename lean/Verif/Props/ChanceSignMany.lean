import Verif.Props.ChanceSign
/-
C102, continued: how likely signing is to need many attempts.
-/
namespace Kms.Props
open Kms.Spec Kms.Spec.Bip32 Kms.Spec.Ecdsa
open Kms.Spec.Secp (Point G n p HasCoords)
open Kms.Secp (SecretKey)
open scoped ENNReal

/-- The 32 bytes that RFC 6979 tries as a nonce in the attempt number `j`. -/
def tried (H : Hashes) (sk : SecretKey) (msg : Bytes) (j : Nat) : Bytes :=
  mac H (state (mac H) sk.k (bytesVal msg) j).1 (state (mac H) sk.k (bytesVal msg) j).2

/-- The byte strings of `m` blocks of 32 bytes, each with its value in the set. -/
def blocks (S : Set Nat) (m : Nat) : Set Bytes :=
  {b | b.length = 32 * m ∧ ∀ j < m, parse256 ((b.drop (32 * j)).take 32) ∈ S}

theorem blocks_ncard (S : Set Nat) (hS : ∀ x ∈ S, x < 2 ^ 256) (m : Nat) : (blocks S m).ncard ≤ S.ncard ^ m := by
  have hfin : ∀ m, (blocks S m).Finite := fun m => (finite_bytes (32 * m)).subset (fun b hb => hb.1)
  have h1 : {b : Bytes | b.length = 32 ∧ parse256 b ∈ S}.Finite := (finite_bytes 32).subset (fun b hb => hb.1)
  induction m with
  | zero =>
    have : blocks S 0 ⊆ {[]} := fun b hb => List.eq_nil_of_length_eq_zero hb.1
    refine (Set.ncard_le_ncard this (Set.finite_singleton _)).trans ?_
    rw [Set.ncard_singleton, pow_zero]
  | succ m ih =>
    have hle : (blocks S (m + 1)).ncard ≤ ({b : Bytes | b.length = 32 ∧ parse256 b ∈ S} ×ˢ blocks S m).ncard := by
      refine Set.ncard_le_ncard_of_injOn (fun b => (b.take 32, b.drop 32)) ?_ ?_ (h1.prod (hfin m))
      · rintro b ⟨hb, hv⟩
        refine ⟨⟨?_, ?_⟩, ?_, fun j hj => ?_⟩
        · show (b.take 32).length = 32
          rw [List.length_take]
          omega
        · exact hv 0 (by omega)
        · show (b.drop 32).length = 32 * m
          rw [List.length_drop]
          omega
        · have := hv (j + 1) (by omega)
          show parse256 (((b.drop 32).drop (32 * j)).take 32) ∈ S
          rw [List.drop_drop]
          rwa [show 32 + 32 * j = 32 * (j + 1) by omega]
      · intro a _ b _ e
        simp only [Prod.mk.injEq] at e
        rw [← List.take_append_drop 32 a, ← List.take_append_drop 32 b, e.1, e.2]
    refine hle.trans ?_
    rw [Set.ncard_prod, count_values S hS, pow_succ, Nat.mul_comm]
    exact Nat.mul_le_mul_right _ ih

theorem flat_block (f : Nat → Bytes) (hf : ∀ j, (f j).length = 32) (m : Nat) :
    ((List.range m).flatMap f).length = 32 * m ∧
    ∀ j < m, ((((List.range m).flatMap f).drop (32 * j)).take 32) = f j := by
  induction m with
  | zero => exact ⟨rfl, fun j hj => absurd hj (by omega)⟩
  | succ m ih =>
    rw [List.range_succ, List.flatMap_append, List.flatMap_singleton]
    refine ⟨by rw [List.length_append, ih.1, hf]; omega, fun j hj => ?_⟩
    by_cases h : j < m
    · rw [List.drop_append_of_le_length (by rw [ih.1]; omega), List.take_append_of_le_length, ih.2 j h]
      rw [List.length_drop, ih.1]
      omega
    · have : j = m := by omega
      subst this
      rw [List.drop_left' ih.1, List.take_of_length_le (by rw [hf])]

/-- If signing is not finished after `m` attempts, each of them came to nothing. -/
theorem ecdsa_none (H : Hashes) (debug : Bool) (m : Nat) (sk : SecretKey) (msg : Bytes) (hl : msg.length = 32)
    (h : ecdsaSign H debug m sk msg = none) :
    ∀ j < m, Secp.turn debug sk.k (bytesVal msg % n) (candidate (mac H) sk.k (bytesVal msg) j) = none := by
  intro j
  induction j using Nat.strong_induction_on with
  | _ j ih =>
    intro hj
    rcases ht : Secp.turn debug sk.k (bytesVal msg % n) (candidate (mac H) sk.k (bytesVal msg) j) with _ | r
    · rfl
    · have := (ecdsa_iff H debug m sk msg hl _).2 ⟨j, hj, fun i hi => ih i hi (by omega), r, ht, rfl⟩
      rw [h] at this
      cases this

/-- The numbers that cannot serve as nonces: at most `2^129`. -/
theorem unusable_ncard (sk : SecretKey) (msg : Bytes) :
    {v | v < 2 ^ 256 ∧ Unusable sk.k (bytesVal msg) v}.ncard ≤ 2 ^ 129 := by
  obtain ⟨f1, c1⟩ := zero_s_ncard sk (bytesVal msg)
  obtain ⟨f2, c2⟩ := nonces_le _ f1
  have fA : {v : Nat | v < 2 ^ 256 ∧ (v = 0 ∨ n ≤ v)}.Finite := (Set.finite_lt_nat (2 ^ 256)).subset (fun x hx => hx.1)
  refine (Set.ncard_le_ncard (t := {v : Nat | v < 2 ^ 256 ∧ (v = 0 ∨ n ≤ v)} ∪
    {k | k < n ∧ ∃ x ∈ {x | x < p ∧ n ∣ bytesVal msg + x % n * sk.k}, ∃ y, HasCoords (k • G) x y}) ?_ (fA.union f2)).trans ?_
  · rintro v ⟨hv, hu | hu | ⟨x, y, hc, hd⟩⟩
    · exact .inl ⟨hv, .inl hu⟩
    · exact .inl ⟨hv, .inr hu⟩
    · by_cases hk : v < n
      · exact .inr ⟨hk, x, ⟨(Secp.coords_lt hc).1, hd⟩, y, hc⟩
      · exact .inl ⟨hv, .inr (by omega)⟩
  · refine (Set.ncard_union_le _ _).trans ?_
    rw [bad_ncard]
    have : 2 ^ 256 - (n - 1) + 4 ≤ 2 ^ 129 := by decide
    omega

/-- **C102** If the HMAC outputs that RFC 6979 tries as nonces in the first `m` attempts are independent and uniformly
distributed (their concatenation is), signing is not finished after `m` attempts with probability at most `2^(-127 m)`,
whatever the private key and the 32-byte message. -/
theorem C102_many_attempts (R : PMF Hashes) (sk : SecretKey) (msg : Bytes) (hl : msg.length = 32) (m : Nat)
    (hR : UniformBytes R (32 * m) (fun H => (List.range m).flatMap (tried H sk msg))) :
    chance R (fun H => ecdsaSign H false m sk msg = none) ≤ (2 ^ (127 * m) : ℝ≥0∞)⁻¹ := by
  set S : Set Nat := {v | v < 2 ^ 256 ∧ Unusable sk.k (bytesVal msg) v} with hS
  have hlen : ∀ H j, (tried H sk msg j).length = 32 := fun H j => candidate_length H _ _
  have hmem : ∀ x ∈ S, x < 2 ^ 256 := fun x hx => hx.1
  refine (chance_mono R (B := fun H => (List.range m).flatMap (tried H sk msg) ∈ blocks S m) fun H h => ?_).trans ?_
  · obtain ⟨h1, h2⟩ := flat_block (tried H sk msg) (hlen H) m
    refine ⟨h1, fun j hj => ?_⟩
    rw [h2 j hj]
    refine ⟨?_, ?_⟩
    · unfold parse256
      rw [bytesVal_eq]
      refine Nat.lt_of_lt_of_le (beNat_lt _) ?_
      rw [hlen]
      decide
    · have hn := ecdsa_none H false m sk msg hl h j hj
      rcases turn_release sk.k (bytesVal msg) (candidate (mac H) sk.k (bytesVal msg) j) with ⟨_, hu⟩ | ⟨r, s, v, ht, _⟩
      · exact hu
      · rw [ht] at hn
        cases hn
  · have hle : ({b : Bytes | b.length = 32 * m ∧ b ∈ blocks S m}.ncard : ℝ≥0∞) ≤ 2 ^ (129 * m) := by
      have : {b : Bytes | b.length = 32 * m ∧ b ∈ blocks S m} = blocks S m := by
        ext b
        exact ⟨fun h => h.2, fun h => ⟨h.1, h⟩⟩
      rw [this]
      have h3 := (blocks_ncard S hmem m).trans (Nat.pow_le_pow_left (unusable_ncard sk msg) m)
      rw [← pow_mul] at h3
      exact_mod_cast h3
    rw [uniform_chance hR (fun H => (flat_block _ (hlen H) m).1) (fun b => b ∈ blocks S m)]
    have h2 : (2 ^ (129 * m) : ℝ≥0∞) * (2 ^ (8 * (32 * m)) : ℝ≥0∞)⁻¹ = (2 ^ (127 * m) : ℝ≥0∞)⁻¹ := by
      rw [show 8 * (32 * m) = 129 * m + 127 * m by omega, pow_add, ENNReal.mul_inv (by simp) (by simp), ← mul_assoc,
        ENNReal.mul_inv_cancel (by simp) (by simp), one_mul]
    rw [← h2]
    exact mul_le_mul_left hle _

/-! Hash functions whose nonces are given. -/

/-- The key `c 0 … 0`. -/
def keyOf (c : UInt8) : Bytes := c :: List.replicate 31 0

theorem keyOf_length (c : UInt8) : (keyOf c).length = 32 := rfl

/-- A SHA-256 for which HMAC under the key `c 0 … 0` is `c+1 0 … 0` for messages longer than 32 bytes and `val c` for
messages of 32 bytes: the block key with 0x36 marks the inner hash. -/
def scripted (val : Nat → ByteArr 32) : Hashes where
  sha256 x :=
    if x[63]? = some 0x36 then (if x.length = 96 then ⟨List.replicate 32 1, by simp⟩ else zeroArr 32)
    else if x.drop 64 = (zeroArr 32).1 then ⟨keyOf ((x.headD 0 ^^^ 0x5c) + 1), rfl⟩
    else val (x.headD 0 ^^^ 0x5c).toNat
  sha512 _ := zeroArr 64
  ripemd160 _ := zeroArr 20

theorem pad_key (c x : UInt8) : (List.range 64).map (fun i => (keyOf c).getD i 0 ^^^ x) =
    (c ^^^ x) :: List.replicate 63 x := by
  have h : ∀ i, (keyOf c).getD (i + 1) 0 ^^^ x = x := by
    intro i
    have : (keyOf c).getD (i + 1) 0 = 0 := by
      unfold keyOf
      rw [List.getD_cons_succ, List.getD_eq_getElem?_getD, List.getElem?_replicate]
      split <;> rfl
    rw [this, UInt8.zero_xor]
  rw [List.range_succ_eq_map, List.map_cons, List.map_map]
  congr 1
  refine List.eq_replicate_iff.2 ⟨by rw [List.length_map, List.length_range], ?_⟩
  intro b hb
  obtain ⟨i, _, rfl⟩ := List.mem_map.1 hb
  exact h i

theorem scripted_mac (val : Nat → ByteArr 32) (c : UInt8) (msg : Bytes) :
    mac (scripted val) (keyOf c) msg = if msg.length = 32 then (val c.toNat).1 else keyOf (c + 1) := by
  show hmac64 (fun m => ((scripted val).sha256 m).1) _ _ = _
  unfold hmac64
  simp only [keyOf_length, gt_iff_lt, show ¬ 64 < 32 by omega, if_false, pad_key]
  have e1 : (c ^^^ 0x5c) ^^^ 0x5c = c := by rw [UInt8.xor_assoc, UInt8.xor_self, UInt8.xor_zero]
  have hin : ∀ t : Bytes, (((c ^^^ 0x36) :: List.replicate 63 0x36 : Bytes) ++ t)[63]? = some 0x36 := fun t => rfl
  have hout : ∀ t : Bytes, (((c ^^^ 0x5c) :: List.replicate 63 0x5c : Bytes) ++ t)[63]? = some 0x5c := fun t => rfl
  have hdrop : ∀ t : Bytes, (((c ^^^ 0x5c) :: List.replicate 63 0x5c : Bytes) ++ t).drop 64 = t := fun t => rfl
  have hhead : ∀ t : Bytes, (((c ^^^ 0x5c) :: List.replicate 63 0x5c : Bytes) ++ t).headD 0 = c ^^^ 0x5c := fun t => rfl
  have hlen : (((c ^^^ 0x36) :: List.replicate 63 0x36 : Bytes) ++ msg).length = 64 + msg.length := by
    rw [List.length_append, List.length_cons, List.length_replicate]
  simp only [scripted]
  rw [if_pos (hin msg), if_neg (by rw [hout]; decide), hdrop, hhead, e1, hlen]
  by_cases h : msg.length = 32
  · have h96 : 64 + msg.length = 96 := by omega
    have hne : ¬ (List.replicate 32 1 : Bytes) = (zeroArr 32).1 := by decide
    simp only [if_pos h, if_pos h96, if_neg hne]
  · have h96 : ¬ 64 + msg.length = 96 := by omega
    simp only [if_neg h, if_neg h96, if_true]

theorem scripted_tried (val : Nat → ByteArr 32) (sk : SecretKey) (msg : Bytes) (j : Nat) (hj : j < 254) :
    tried (scripted val) sk msg j = (val (j + 2)).1 := by
  have hst : ∀ j, j < 254 → ∃ V : Bytes, V.length = 32 ∧
      state (mac (scripted val)) sk.k (bytesVal msg) j = (keyOf (UInt8.ofNat (j + 2)), V) := by
    intro j
    induction j with
    | zero =>
      intro _
      refine ⟨(val 2).1, (val 2).2, ?_⟩
      show init _ _ _ = _
      unfold init
      have h0 : (List.replicate 32 0 : Bytes) = keyOf 0 := rfl
      have h1 : (List.replicate 32 1 : Bytes).length = 32 := rfl
      have h2 : ∀ v, (ser256 v).length = 32 := fun v => by simp [ser256]
      have e : (0 : UInt8) + 1 + 1 = UInt8.ofNat (0 + 2) := rfl
      have e' : ((0 : UInt8) + 1 + 1).toNat = 2 := rfl
      simp only [h0, scripted_mac, List.length_append, h1, h2, (val _).2, List.length_singleton, if_true,
        show ¬ 32 + 1 + 32 + 32 = 32 by omega, if_false, e']
      rfl
    | succ j ih =>
      intro hj
      obtain ⟨V, hV, h⟩ := ih (by omega)
      refine ⟨(val (j + 3)).1, (val (j + 3)).2, ?_⟩
      unfold state
      have e2 : UInt8.ofNat (j + 2) + 1 = UInt8.ofNat (j + 1 + 2) := by
        apply UInt8.toNat_inj.1
        rw [UInt8.toNat_add, UInt8.toNat_ofNat', UInt8.toNat_ofNat']
        have : (1 : UInt8).toNat = 1 := rfl
        omega
      have e3 : (UInt8.ofNat (j + 1 + 2)).toNat = j + 3 := by
        rw [UInt8.toNat_ofNat']
        omega
      simp only [h, scripted_mac, hV, if_true, (val _).2, List.length_append, List.length_singleton,
        show ¬ 32 + 1 = 32 by omega, if_false, e2, e3]
  obtain ⟨V, hV, h⟩ := hst j hj
  unfold tried
  rw [h, scripted_mac, if_pos hV, UInt8.toNat_ofNat', Nat.mod_eq_of_lt (by omega)]

/-- A string of `m` blocks is its blocks one after the other. -/
theorem blocks_flat (b : Bytes) (m : Nat) : (List.range m).flatMap (fun j => (b.drop (32 * j)).take 32) = b.take (32 * m) := by
  induction m with
  | zero => rfl
  | succ m ih =>
    rw [List.range_succ, List.flatMap_append, List.flatMap_singleton, ih, Nat.mul_succ, List.take_add]

/-- Hash functions whose first candidates are independent and uniform exist. -/
theorem independent_nonces (sk : SecretKey) (msg : Bytes) (m : Nat) (hm : m ≤ 254) : ∃ R : PMF Hashes,
    UniformBytes R (32 * m) (fun H => (List.range m).flatMap (tried H sk msg)) := by
  obtain ⟨P, hP⟩ := uniform_exists (32 * m)
  let val : ByteArr (32 * m) → Nat → ByteArr 32 := fun b j =>
    if h : ((b.1.drop (32 * (j - 2))).take 32).length = 32 then ⟨_, h⟩ else zeroArr 32
  refine ⟨P.map fun b => scripted (val b), fun b hb => ?_⟩
  rw [chance_map, ← hP b hb]
  refine chance_congr _ fun a => ?_
  have : (List.range m).flatMap (tried (scripted (val a)) sk msg) = a.1 := by
    have hv : ∀ j ∈ List.range m, tried (scripted (val a)) sk msg j = (a.1.drop (32 * j)).take 32 := by
      intro j hj
      have hj := List.mem_range.1 hj
      rw [scripted_tried _ _ _ _ (by omega)]
      have : ((a.1.drop (32 * (j + 2 - 2))).take 32).length = 32 := by
        rw [List.length_take, List.length_drop, a.2]
        omega
      simp only [val, dif_pos this, Nat.add_sub_cancel]
    rw [List.flatMap_congr hv, blocks_flat, List.take_of_length_le (by rw [a.2])]
  show (List.range m).flatMap (tried (scripted (val a)) sk msg) = b ↔ a.1 = b
  rw [this]

-- hash functions for which three attempts to sign 32 times the byte 1 fail with probability at most 2^-381
example (sk : SecretKey) : ∃ R : PMF Hashes,
    chance R (fun H => ecdsaSign H false 3 sk (List.replicate 32 1) = none) ≤ (2 ^ 381 : ℝ≥0∞)⁻¹ := by
  obtain ⟨R, h⟩ := independent_nonces sk (List.replicate 32 1) 3 (by decide)
  exact ⟨R, C102_many_attempts R sk _ (by decide) 3 h⟩

end Kms.Props
