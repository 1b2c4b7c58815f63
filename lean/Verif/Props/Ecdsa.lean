import Verif.Proofs.Ecdsa
import Verif.Props.DerivationMore
/-
Properties C51, C56, C61, C62: signing, and the RIPEMD-160 helper.
`ecdsaSign H debug fuel` is `none` while the signing loop has not ended after `fuel` turns.
-/
namespace Kms.Props
open Kms.Spec Kms.Spec.Bip32 Kms.Spec.Ecdsa
open Kms.Spec.Secp (Point G n p HasCoords)
open Kms.Secp (SecretKey)

/-- A nonce does not depend on a multiple of n in the message value. -/
theorem sig_mod {d m k r s v : Nat} : Signature d (m % n) k r s v ↔ Signature d m k r s v := by
  simp only [Signature, Nat.mod_add_mod]

theorem unusable_mod {d m k : Nat} : Unusable d (m % n) k ↔ Unusable d m k := by
  have : ∀ a, n ∣ m % n + a ↔ n ∣ m + a := fun a => by
    rw [Nat.dvd_iff_mod_eq_zero, Nat.dvd_iff_mod_eq_zero, Nat.mod_add_mod]
  simp only [Unusable, this]

/-- The outcome for a message of the right length. -/
theorem ecdsa_eq (H : Hashes) (debug : Bool) (fuel : Nat) (sk : SecretKey) (msg : Bytes) (hl : msg.length = 32) :
    ecdsaSign H debug fuel sk msg = (Secp.signLoop H debug sk.k (bytesVal msg % n) fuel
      (Drbg.new H sk.serialize.1 (natBE 32 (bytesVal msg % n)) [])).map fun r =>
        (r.mapErr .secp256k1Error).map fun (r, s, recid) => (Secp.serializeSig r s, UInt8.ofNat recid) := by
  unfold ecdsaSign Secp.parseMessage
  rw [if_neg (by omega), bytesVal_eq]
  rfl

theorem ecdsa_iff (H : Hashes) (debug : Bool) (fuel : Nat) (sk : SecretKey) (msg : Bytes) (hl : msg.length = 32)
    (res : Res TopError (ByteArr 64 × UInt8)) :
    ecdsaSign H debug fuel sk msg = some res ↔ ∃ j < fuel,
      (∀ i < j, Secp.turn debug sk.k (bytesVal msg % n) (candidate (mac H) sk.k (bytesVal msg) i) = none) ∧
      ∃ r, Secp.turn debug sk.k (bytesVal msg % n) (candidate (mac H) sk.k (bytesVal msg) j) = some r ∧
        res = (r.mapErr .secp256k1Error).map fun (r, s, recid) => (Secp.serializeSig r s, UInt8.ofNat recid) := by
  rw [ecdsa_eq H debug fuel sk msg hl, Option.map_eq_some_iff]
  simp only [Secp.signLoop_iff, ← cand_eq]
  constructor
  · rintro ⟨r, ⟨j, hj, h1, h2⟩, h3⟩
    exact ⟨j, hj, h1, r, h2, h3.symm⟩
  · rintro ⟨j, hj, h1, r, h2, h3⟩
    exact ⟨r, ⟨j, hj, h1, h2⟩, h3.symm⟩

/-- A nonce is skipped in a release build exactly when it is unusable. -/
theorem turn_release (d m k : Nat) :
    (Secp.turn false d (m % n) k = none ∧ Unusable d m k) ∨
    (∃ r s v, Secp.turn false d (m % n) k = some (.ok (r, s, v)) ∧ ¬ Unusable d m k ∧ 0 < k ∧ k < n ∧
      Signature d m k r s v) := by
  rw [← unusable_mod]
  rcases Secp.turn_cases false d (m % n) k with ⟨h1, h2⟩ | ⟨h1, x, y, hc, h⟩
  · left
    exact ⟨h2, by rcases h1 with h1 | h1; exacts [Or.inl h1, Or.inr (Or.inl h1)]⟩
  · rcases h with ⟨h2, _⟩ | ⟨_, h2, h3⟩ | ⟨_, h2, s, v, h3, h4⟩
    · simp at h2
    · left
      exact ⟨h3, Or.inr (Or.inr ⟨x, y, hc, h2⟩)⟩
    · right
      refine ⟨_, s, v, h3, ?_, h1.1, h1.2, sig_mod.1 h4⟩
      rintro (h | h | ⟨x', y', hc', h⟩)
      · omega
      · exact absurd h1.2 (Nat.not_lt.2 h)
      · rw [(Secp.coords_unique hc hc').1] at h2
        exact h2 h

theorem sig_bounds {d m k r s v : Nat} (h : Signature d m k r s v) : r < n ∧ s < n ∧ v < 4 := by
  obtain ⟨h0, hs, _, x, y, _, _, hr, hv, _⟩ := h
  refine ⟨hr ▸ Nat.mod_lt _ (by decide), Nat.lt_of_le_of_lt hs (by decide), ?_⟩
  rw [hv]; split <;> omega

theorem serializeSig_eq (r s : Nat) : (Secp.serializeSig r s).1 = ser256 r ++ ser256 s := by
  rw [ser256_eq, ser256_eq]; rfl

theorem serializeSig_inj {r s r' s' : Nat} (hr : r < n) (hs : s < n) (hr' : r' < n) (hs' : s' < n)
    (h : ser256 r ++ ser256 s = ser256 r' ++ ser256 s') : r = r' ∧ s = s' := by
  rw [ser256_eq, ser256_eq, ser256_eq, ser256_eq] at h
  obtain ⟨h1, h2⟩ := List.append_inj h (by simp)
  have hn : n < 256 ^ 32 := by decide
  have e : ∀ {a b : Nat}, a < n → b < n → natBE 32 a = natBE 32 b → a = b := by
    intro a b ha hb h
    have := congrArg beNat h
    rwa [beNat_natBE, beNat_natBE, Nat.mod_eq_of_lt (Nat.lt_trans ha hn), Nat.mod_eq_of_lt (Nat.lt_trans hb hn)] at this
  exact ⟨e hr hr' h1, e hs hs' h2⟩

/-- C51, first part: `ecdsa_sign` errs exactly on inputs that are not 32 bytes long, always in the same way, in every
build. -/
theorem C51_input_length (H : Hashes) (debug : Bool) (fuel : Nat) (sk : SecretKey) (msg : Bytes) :
    ((∃ e, ecdsaSign H debug fuel sk msg = some (.err e)) ↔ msg.length ≠ 32) ∧
    (msg.length ≠ 32 → ecdsaSign H debug fuel sk msg = some (.err (.secp256k1Error .invalidInputLength))) := by
  have h2 : msg.length ≠ 32 → ecdsaSign H debug fuel sk msg = some (.err (.secp256k1Error .invalidInputLength)) := by
    intro h
    unfold ecdsaSign Secp.parseMessage
    rw [if_pos h]
  refine ⟨⟨?_, fun h => ⟨_, h2 h⟩⟩, h2⟩
  rintro ⟨e, he⟩ hl
  obtain ⟨j, _, _, r, h1, h3⟩ := (ecdsa_iff H debug fuel sk msg hl _).1 he
  rcases Secp.turn_cases debug sk.k (bytesVal msg % n) (candidate (mac H) sk.k (bytesVal msg) j) with
    ⟨_, h4⟩ | ⟨_, x, y, _, ⟨_, h4⟩ | ⟨_, _, h4⟩ | ⟨_, _, s, v, h4, _⟩⟩ <;> rw [h4] at h1 <;> cases h1 <;> simp at h3

-- neither 31 nor 33 bytes
example (H : Hashes) : ecdsaSign H false 0 exKey.privateKey (List.replicate 31 0) = some (.err (.secp256k1Error .invalidInputLength)) ∧
    ecdsaSign H false 0 exKey.privateKey (List.replicate 33 0) = some (.err (.secp256k1Error .invalidInputLength)) :=
  ⟨(C51_input_length ..).2 (by decide), (C51_input_length ..).2 (by decide)⟩

/-- Hash functions for the examples: SHA-256 is always `v`. -/
def constSha256 (v : Nat) : Hashes where
  sha256 _ := ⟨natBE 32 v, by simp⟩
  sha512 _ := zeroArr 64
  ripemd160 _ := zeroArr 20

/-- C61. The signature is the one of RFC 6979, made low: in a release build, `ecdsa_sign` of a 32-byte message returns
(sig, v) exactly when sig is r and s, 32 bytes each, of the signature made with the first candidate of RFC 6979 that is
usable, and v is its recovery id; it ends exactly when there is a usable candidate, and never panics. -/
theorem C61_rfc6979 (H : Hashes) (sk : SecretKey) (msg : Bytes) (hl : msg.length = 32) :
    (∀ fuel sig v, ecdsaSign H false fuel sk msg = some (.ok (sig, v)) ↔
      ∃ j < fuel, (∀ i < j, Unusable sk.k (bytesVal msg) (candidate (mac H) sk.k (bytesVal msg) i)) ∧
        ¬ Unusable sk.k (bytesVal msg) (candidate (mac H) sk.k (bytesVal msg) j) ∧
        ∃ r s, sig.1 = ser256 r ++ ser256 s ∧
          Signature sk.k (bytesVal msg) (candidate (mac H) sk.k (bytesVal msg) j) r s v.toNat) ∧
    ((∃ fuel, ecdsaSign H false fuel sk msg ≠ none) ↔
      ∃ j, ¬ Unusable sk.k (bytesVal msg) (candidate (mac H) sk.k (bytesVal msg) j)) ∧
    (∀ fuel, ecdsaSign H false fuel sk msg ≠ some .panic) := by
  have hnone : ∀ i, Secp.turn false sk.k (bytesVal msg % n) (candidate (mac H) sk.k (bytesVal msg) i) = none ↔
      Unusable sk.k (bytesVal msg) (candidate (mac H) sk.k (bytesVal msg) i) := by
    intro i
    rcases turn_release sk.k (bytesVal msg) (candidate (mac H) sk.k (bytesVal msg) i) with
      ⟨h1, h2⟩ | ⟨r, s, v, h1, h2, _⟩
    · simp [h1, h2]
    · simp [h1, h2]
  refine ⟨?_, ?_, ?_⟩
  · intro fuel sig v
    rw [ecdsa_iff H false fuel sk msg hl]
    simp only [hnone]
    constructor
    · rintro ⟨j, hj, h1, r, h2, h3⟩
      refine ⟨j, hj, h1, ?_⟩
      rcases turn_release sk.k (bytesVal msg) (candidate (mac H) sk.k (bytesVal msg) j) with
        ⟨h4, _⟩ | ⟨r, s, v, h4, h5, _, _, h6⟩
      · rw [h4] at h2; cases h2
      · rw [h4] at h2
        cases h2
        simp only [Res.mapErr_ok, Res.map_ok, Res.ok.injEq, Prod.mk.injEq] at h3
        obtain ⟨rfl, rfl⟩ := h3
        refine ⟨h5, r, s, serializeSig_eq r s, ?_⟩
        have := (sig_bounds h6).2.2
        rwa [UInt8.toNat_ofNat_of_lt' (Nat.lt_of_lt_of_le this (by decide))]
    · rintro ⟨j, hj, h1, h5, r, s, h2, h3⟩
      refine ⟨j, hj, h1, ?_⟩
      rcases turn_release sk.k (bytesVal msg) (candidate (mac H) sk.k (bytesVal msg) j) with
        ⟨_, h4⟩ | ⟨r', s', v', h4, _, hk0, hk, h6⟩
      · exact absurd h4 h5
      · refine ⟨_, h4, ?_⟩
        obtain ⟨rfl, rfl, rfl⟩ := Secp.sig_unique hk0 hk h6 h3
        have : sig = Secp.serializeSig r' s' := Subtype.ext (h2.trans (serializeSig_eq r' s').symm)
        simp [this]
  · constructor
    · rintro ⟨fuel, h⟩
      obtain ⟨res, h⟩ := Option.ne_none_iff_exists'.1 h
      obtain ⟨j, _, _, r, h2, _⟩ := (ecdsa_iff H false fuel sk msg hl _).1 h
      exact ⟨j, fun hu => by rw [(hnone j).2 hu] at h2; cases h2⟩
    · rintro ⟨j, hj⟩
      classical
      have hex : ∃ j, ¬ Unusable sk.k (bytesVal msg) (candidate (mac H) sk.k (bytesVal msg) j) := ⟨j, hj⟩
      have hmin : ∀ i < Nat.find hex, Unusable sk.k (bytesVal msg) (candidate (mac H) sk.k (bytesVal msg) i) :=
        fun i hi => not_not.1 (Nat.find_min hex hi)
      have hj := Nat.find_spec hex
      generalize Nat.find hex = j at hmin hj
      refine ⟨j + 1, ?_⟩
      rw [Option.ne_none_iff_exists']
      rcases turn_release sk.k (bytesVal msg) (candidate (mac H) sk.k (bytesVal msg) j) with
        ⟨_, h4⟩ | ⟨r, s, v, h4, _⟩
      · exact absurd h4 hj
      · exact ⟨_, (ecdsa_iff H false (j + 1) sk msg hl _).2 ⟨j, by omega, fun i hi => (hnone i).2 (hmin i hi), _, h4, rfl⟩⟩
  · intro fuel h
    obtain ⟨j, _, _, r, h2, h3⟩ := (ecdsa_iff H false fuel sk msg hl _).1 h
    rcases turn_release sk.k (bytesVal msg) (candidate (mac H) sk.k (bytesVal msg) j) with
      ⟨h4, _⟩ | ⟨r, s, v, h4, _⟩ <;> rw [h4] at h2 <;> cases h2
    simp at h3

-- with a hash function that is always 1 the first candidate is the nonce 1, and there is a signature after one attempt
example : ∃ sig v, ecdsaSign (constSha256 1) false 1 ⟨1, by decide, by decide⟩ (List.replicate 32 0) = some (.ok (sig, v)) ∧
    candidate (mac (constSha256 1)) 1 (bytesVal (List.replicate 32 0)) 0 = 1 := by
  refine ⟨⟨ser256 Spec.Secp.gx ++ ser256 Spec.Secp.gx, by decide⟩, 0, ?_, ?_⟩
  · decide +kernel
  · decide +kernel

/-- C62. Builds with debug assertions: a signature returned there is the one of a release build, with recovery id 0
or 1; and the call panics exactly when, before any nonce is used, a candidate in range is met whose point has an x
coordinate of at least n. -/
theorem C62_debug_build (H : Hashes) (fuel : Nat) (sk : SecretKey) (msg : Bytes) (hl : msg.length = 32) :
    (∀ sig v, ecdsaSign H true fuel sk msg = some (.ok (sig, v)) →
      ecdsaSign H false fuel sk msg = some (.ok (sig, v)) ∧ v.toNat ≤ 1) ∧
    (ecdsaSign H true fuel sk msg = some .panic ↔
      ∃ j < fuel, (∀ i < j, Unusable sk.k (bytesVal msg) (candidate (mac H) sk.k (bytesVal msg) i) ∧
          ∀ x y, candidate (mac H) sk.k (bytesVal msg) i < n →
            HasCoords (candidate (mac H) sk.k (bytesVal msg) i • G) x y → x < n) ∧
        0 < candidate (mac H) sk.k (bytesVal msg) j ∧ candidate (mac H) sk.k (bytesVal msg) j < n ∧
        ∃ x y, HasCoords (candidate (mac H) sk.k (bytesVal msg) j • G) x y ∧ n ≤ x) := by
  have hnone : ∀ k, Secp.turn true sk.k (bytesVal msg % n) k = none ↔
      Unusable sk.k (bytesVal msg) k ∧ ∀ x y, k < n → HasCoords (k • G) x y → x < n := by
    intro k
    rw [← unusable_mod]
    rcases Secp.turn_cases true sk.k (bytesVal msg % n) k with ⟨h1, h2⟩ | ⟨h1, x, y, hc, h⟩
    · simp only [h2, true_iff]
      refine ⟨by rcases h1 with h1 | h1; exacts [Or.inl h1, Or.inr (Or.inl h1)], ?_⟩
      intro x y hk hc
      rcases h1 with h1 | h1
      · rw [h1, zero_nsmul] at hc
        exact hc.elim
      · exact absurd hk (Nat.not_lt.2 h1)
    · rcases h with ⟨h2, h3⟩ | ⟨h2, h3, h4⟩ | ⟨h2, h3, s, v, h4, h5⟩
      · simp only [h3]
        constructor
        · intro h; cases h
        · rintro ⟨_, h⟩
          exact absurd (h x y h1.2 hc) (Nat.not_lt.2 h2.2)
      · simp only [h4, true_iff]
        refine ⟨Or.inr (Or.inr ⟨x, y, hc, h3⟩), fun x' y' _ hc' => ?_⟩
        rw [← (Secp.coords_unique hc hc').1]
        exact Nat.not_le.1 fun h => h2 ⟨rfl, h⟩
      · simp only [h4]
        constructor
        · intro h; cases h
        · rintro ⟨h | h | ⟨x', y', hc', h⟩, _⟩
          · omega
          · exact absurd h1.2 (Nat.not_lt.2 h)
          · rw [(Secp.coords_unique hc hc').1] at h3
            exact absurd h h3
  constructor
  · intro sig v h
    obtain ⟨j, hj, h1, r, h2, h3⟩ := (ecdsa_iff H true fuel sk msg hl _).1 h
    have hprev : ∀ i < j, Secp.turn false sk.k (bytesVal msg % n) (candidate (mac H) sk.k (bytesVal msg) i) = none := by
      intro i hi
      have := ((hnone _).1 (h1 i hi)).1
      rcases turn_release sk.k (bytesVal msg) (candidate (mac H) sk.k (bytesVal msg) i) with ⟨h4, _⟩ | ⟨_, _, _, _, h4, _⟩
      · exact h4
      · exact absurd this h4
    rcases Secp.turn_cases true sk.k (bytesVal msg % n) (candidate (mac H) sk.k (bytesVal msg) j) with
      ⟨_, h4⟩ | ⟨hk, x, y, hc, ⟨_, h4⟩ | ⟨_, _, h4⟩ | ⟨h5, h6, s, w, h4, h7⟩⟩ <;> rw [h4] at h2 <;> cases h2
    · simp at h3
    · simp only [Res.mapErr_ok, Res.map_ok, Res.ok.injEq, Prod.mk.injEq] at h3
      obtain ⟨rfl, rfl⟩ := h3
      have hw : w < 2 := by
        obtain ⟨_, _, k', x', y', hk', hc', _, hv, _⟩ := h7
        have hxx : x' = x := by
          rcases hk' with rfl | rfl
          · exact (Secp.coords_unique hc' hc).1
          · rw [← Secp.n_eq, Secp.smul_neg_G hk.2] at hc'
            exact (Secp.coords_unique hc' (Secp.coords_neg hc)).1
        rw [hv, hxx, if_neg (show ¬ n ≤ x from fun h => h5 ⟨rfl, h⟩)]
        omega
      refine ⟨(ecdsa_iff H false fuel sk msg hl _).2 ⟨j, hj, hprev, ?_⟩, ?_⟩
      · rcases Secp.turn_cases false sk.k (bytesVal msg % n) (candidate (mac H) sk.k (bytesVal msg) j) with
          ⟨h8, _⟩ | ⟨_, x', y', hc', ⟨h8, _⟩ | ⟨_, h8, _⟩ | ⟨_, _, s', w', h8, h9⟩⟩
        · have := hk.2
          omega
        · simp at h8
        · rw [(Secp.coords_unique hc hc').1] at h6
          exact absurd h8 h6
        · obtain ⟨e1, rfl, rfl⟩ := Secp.sig_unique hk.1 hk.2 h9 h7
          rw [e1] at h8
          exact ⟨_, h8, rfl⟩
      · rw [UInt8.toNat_ofNat_of_lt' (Nat.lt_of_lt_of_le hw (by decide))]
        omega
  · rw [ecdsa_iff H true fuel sk msg hl]
    simp only [hnone]
    constructor
    · rintro ⟨j, hj, h1, r, h2, h3⟩
      refine ⟨j, hj, h1, ?_⟩
      rcases Secp.turn_cases true sk.k (bytesVal msg % n) (candidate (mac H) sk.k (bytesVal msg) j) with
        ⟨_, h4⟩ | ⟨hk, x, y, hc, ⟨h5, h4⟩ | ⟨_, _, h4⟩ | ⟨_, _, s, w, h4, _⟩⟩ <;> rw [h4] at h2 <;> cases h2
      · exact ⟨hk.1, hk.2, x, y, hc, h5.2⟩
      · simp at h3
    · rintro ⟨j, hj, h1, hk0, hk, x, y, hc, hx⟩
      refine ⟨j, hj, h1, .panic, ?_, rfl⟩
      rcases Secp.turn_cases true sk.k (bytesVal msg % n) (candidate (mac H) sk.k (bytesVal msg) j) with
        ⟨h4, _⟩ | ⟨_, x', y', hc', ⟨h5, h4⟩ | ⟨h5, _⟩ | ⟨h5, _⟩⟩
      · rw [← Secp.n_eq] at hk
        omega
      · exact h4
      · rw [(Secp.coords_unique hc hc').1] at hx
        exact absurd ⟨rfl, hx⟩ h5
      · rw [(Secp.coords_unique hc hc').1] at hx
        exact absurd ⟨rfl, hx⟩ h5

/-- C51, the part that holds (full statement: without the hypothesis `r ≠ 0`).  In every build: a returned signature is
r and s, 32 bytes each, with r below n and s in [1, n/2]; if r is not 0 the signature verifies for the public key of the
secret key, and the recovery id recovers that public key.  In a build with debug assertions r is never 0. -/
theorem C51_signature_verifies_partial (H : Hashes) (debug : Bool) (fuel : Nat) (sk : SecretKey) (msg : Bytes)
    (sig : ByteArr 64) (v : UInt8) (h : ecdsaSign H debug fuel sk msg = some (.ok (sig, v))) :
    ∃ r s, sig.1 = ser256 r ++ ser256 s ∧ r < n ∧ 0 < s ∧ s ≤ n / 2 ∧ v.toNat < 4 ∧
      (r ≠ 0 → Verifies (sk.k • G) (bytesVal msg) r s ∧ Recovers (sk.k • G) (bytesVal msg) r s v.toNat) ∧
      (debug = true → r ≠ 0) := by
  have hl : msg.length = 32 := by
    by_contra hl
    rw [(C51_input_length H debug fuel sk msg).2 hl] at h
    cases h
  have hrel : ecdsaSign H false fuel sk msg = some (.ok (sig, v)) ∧ (debug = true → v.toNat ≤ 1) := by
    cases debug with
    | false => exact ⟨h, fun h => by cases h⟩
    | true =>
      obtain ⟨h1, h2⟩ := (C62_debug_build H fuel sk msg hl).1 sig v h
      exact ⟨h1, fun _ => h2⟩
  obtain ⟨j, _, _, hu, r, s, h1, h2⟩ := ((C61_rfc6979 H sk msg hl).1 fuel sig v).1 hrel.1
  obtain ⟨hr, _, hv⟩ := sig_bounds h2
  refine ⟨r, s, h1, hr, h2.1, h2.2.1, hv, fun h0 => ⟨Secp.sig_verifies h2 h0, Secp.sig_recovers h2 h0⟩, ?_⟩
  intro hd h0
  have hv1 := hrel.2 hd
  obtain ⟨_, _, k', x, y, _, hc, hrx, hvx, _⟩ := h2
  have hx : ¬ n ≤ x := fun hx => by rw [if_pos hx] at hvx; omega
  rw [h0, Nat.mod_eq_of_lt (Nat.not_le.1 hx)] at hrx
  rw [← hrx] at hc
  exact Secp.x_ne_zero hc

/-- The public key that a signature recovers is unique. -/
theorem recovers_unique {Q Q' : Point} {m r s v : Nat} (h : Recovers Q m r s v) (h' : Recovers Q' m r s v) : Q = Q' := by
  obtain ⟨_, R, x, y, w, hc, hx, hy, hw, rfl⟩ := h
  obtain ⟨_, R', x', y', w', hc', hx', hy', hw', rfl⟩ := h'
  have hR : R = R' := by
    match R, hc, R', hc' with
    | .some a b hab, hc, .some a' b' hab', hc' =>
      have ha : a = a' := ZMod.val_injective _ (hc.1.trans (hx.trans (hx'.symm.trans hc'.1.symm)))
      subst ha
      have hb : b = b' := by
        refine Secp.y_unique ((Spec.Secp.nonsingular_iff _ _).1 hab) ((Spec.Secp.nonsingular_iff _ _).1 hab') ?_
        rw [hc.2, hc'.2, hy, hy']
      subst hb
      rfl
  subst hR
  obtain ⟨t, _, ht⟩ := Secp.exists_log (s • R - m • G)
  rw [ht, ← mul_nsmul', ← mul_nsmul', Secp.smul_G_inj, Secp.mod_n_iff]
  have e : (w : ZMod Secp.n) = w' := by
    have h1 : ((r * w : Nat) : ZMod Secp.n) = ((1 : Nat) : ZMod Secp.n) := by
      rw [← Secp.mod_n_iff]; exact hw.trans (by decide)
    have h2 : ((r * w' : Nat) : ZMod Secp.n) = ((1 : Nat) : ZMod Secp.n) := by
      rw [← Secp.mod_n_iff]; exact hw'.trans (by decide)
    push_cast at h1 h2
    calc (w : ZMod Secp.n) = w * (r * w') := by rw [h2, mul_one]
      _ = (r * w) * w' := by ring
      _ = w' := by rw [h1, one_mul]
  push_cast
  rw [e]

theorem const_candidate {v : Nat} (hv : v < 2 ^ 256) (d m j : Nat) : candidate (mac (constSha256 v)) d m j = v := by
  unfold candidate parse256
  rw [bytesVal_eq]
  change beNat (natBE 32 v) = v
  rw [beNat_natBE]
  exact Nat.mod_eq_of_lt (Nat.lt_of_lt_of_le hv (by decide))

/-- The point with x coordinate n. -/
theorem point_n : ∃ k, 0 < k ∧ k < n ∧ ∃ y, HasCoords (k • G) n y := by
  have hv : (⟨Secp.n, Secp.PublicKey.setXo Secp.n false⟩ : Secp.PublicKey).Valid := by
    rw [Secp.PublicKey.valid_iff]
    decide +kernel
  obtain ⟨s, hs⟩ := Secp.exists_secret hv
  have := Secp.rep_coords.1 (Secp.fromSecretKey_rep s)
  rw [hs] at this
  exact ⟨s.k, s.pos, s.lt, _, this⟩

/-- C51, false as stated: for every key and every 32-byte message that is not a multiple of n there are hash functions
for which a release build returns a signature with r = 0, that verifies for no public key, and a build with debug
assertions panics. -/
theorem C51_zero_r (sk : SecretKey) (msg : Bytes) (hl : msg.length = 32) (hm : bytesVal msg % n ≠ 0) :
    ∃ H, (∃ sig v, ecdsaSign H false 1 sk msg = some (.ok (sig, v)) ∧
        ∃ s, sig.1 = ser256 0 ++ ser256 s ∧ 0 < s ∧ s < n ∧ ∀ Q, ¬ Verifies Q (bytesVal msg) 0 s) ∧
      ecdsaSign H true 1 sk msg = some .panic := by
  obtain ⟨k, hk0, hk, y, hc⟩ := point_n
  have hcand : ∀ j, candidate (mac (constSha256 k)) sk.k (bytesVal msg) j = k :=
    const_candidate (Nat.lt_trans hk (by decide)) _ _
  refine ⟨constSha256 k, ?_, ?_⟩
  · obtain ⟨h1, _, _⟩ := C61_rfc6979 (constSha256 k) sk msg hl
    rcases turn_release sk.k (bytesVal msg) k with ⟨_, h⟩ | ⟨r, s, v, h2, h3, _, _, h4⟩
    · exfalso
      rcases h with h | h | ⟨x, y', hc', h⟩
      · omega
      · exact absurd hk (Nat.not_lt.2 h)
      · rw [← (Secp.coords_unique hc hc').1, Nat.mod_self, Nat.zero_mul, Nat.add_zero] at h
        exact hm (Nat.mod_eq_zero_of_dvd h)
    · have hb := sig_bounds h4
      have hr : r = 0 := by
        obtain ⟨_, _, k', x, y', hk', hc', hr, _⟩ := h4
        have : x = n := by
          rcases hk' with rfl | rfl
          · exact (Secp.coords_unique hc' hc).1
          · rw [← Secp.n_eq, Secp.smul_neg_G hk] at hc'
            exact (Secp.coords_unique hc' (Secp.coords_neg hc)).1
        rw [hr, this, Nat.mod_self]
      subst hr
      refine ⟨Secp.serializeSig 0 s, UInt8.ofNat v, (h1 _ _ _).2 ⟨0, by omega, fun i hi => absurd hi (by omega), ?_, 0, s,
        serializeSig_eq 0 s, ?_⟩, s, serializeSig_eq 0 s, h4.1, hb.2.1, fun Q h => absurd h.1 (by omega)⟩
      · rw [hcand]; exact h3
      · rw [hcand, UInt8.toNat_ofNat_of_lt' (Nat.lt_of_lt_of_le hb.2.2 (by decide))]
        exact h4
  · refine ((C62_debug_build (constSha256 k) 1 sk msg hl).2).2 ⟨0, by omega, fun i hi => absurd hi (by omega), ?_, ?_, ?_⟩
    · rw [hcand]; exact hk0
    · rw [hcand]; exact hk
    · rw [hcand]; exact ⟨n, y, hc, Nat.le_refl _⟩

/-- C51, C61 and C62 are not vacuous: with the nonce 1, the key 1 signs the message of 32 zero bytes, in both builds,
and r is the x coordinate of G. -/
example : ∃ sig v, ecdsaSign (constSha256 1) true 1 ⟨1, by decide, by decide⟩ (List.replicate 32 0) = some (.ok (sig, v)) ∧
    sig.1.take 32 = ser256 Spec.Secp.gx := by
  refine ⟨⟨ser256 Spec.Secp.gx ++ ser256 Spec.Secp.gx, by decide⟩, 0, ?_, ?_⟩
  · decide +kernel
  · decide +kernel

/-- C56. The helper prints the RIPEMD-160 digest as 40 lowercase hex digits, which read back to the digest. -/
theorem C56_ripemd (H : Hashes) (msg : Bytes) :
    (ripemd H msg).length = 40 ∧ (∀ c ∈ ripemd H msg, c ∈ "0123456789abcdef".toList) ∧
    unhex (ripemd H msg) = some (H.ripemd160 msg).1 := by
  have h := (C22_hex_formatting false).1 ⟨(H.ripemd160 msg).1⟩
  refine ⟨?_, h.2.2.1, h.1⟩
  have := h.2.1
  simp only [(H.ripemd160 msg).2] at this
  exact this

-- the digits of a digest that is not all zeros
example : ripemd ⟨fun _ => zeroArr 32, fun _ => zeroArr 64, fun _ => ⟨List.replicate 19 0xab ++ [0x0c], by decide⟩⟩ [] =
    (List.replicate 19 "ab".toList).flatten ++ "0c".toList := by
  decide +kernel

end Kms.Props
