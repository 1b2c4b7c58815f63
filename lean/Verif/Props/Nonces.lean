import Verif.Props.Collisions
import Verif.Props.ChanceSign
/-
C104: nonces are not used twice unless SHA-256 collides, and what happens if one is.
C105: a signature with its recovery id belongs to one key and message.
-/
namespace Kms.Props
open Kms.Spec Kms.Spec.Bip32 Kms.Spec.Ecdsa
open Kms.Spec.Secp (Point G n p HasCoords)
open Kms.Secp (SecretKey)

/-! ### HMAC-SHA256 without collisions -/

/-- Equal HMACs with keys of 32 bytes have equal keys and messages, or two inputs of SHA-256 collide. -/
theorem mac_inj {H : Hashes} {K K' V V' : Bytes} (hK : K.length = 32) (hK' : K'.length = 32) (e : mac H K V = mac H K' V') :
    (K = K' ∧ V = V') ∨
      Collides H.sha256 (hmacHashes 64 (fun b => (H.sha256 b).1) K V) (hmacHashes 64 (fun b => (H.sha256 b).1) K' V') := by
  by_cases hc : Collides H.sha256 (hmacHashes 64 (fun b => (H.sha256 b).1) K V) (hmacHashes 64 (fun b => (H.sha256 b).1) K' V')
  · exact .inr hc
  left
  have inj : ∀ a b, a ∈ hmacHashes 64 (fun b => (H.sha256 b).1) K V → b ∈ hmacHashes 64 (fun b => (H.sha256 b).1) K' V' →
      (H.sha256 a).1 = (H.sha256 b).1 → a = b := by
    intro a b ha hb hab
    by_contra hne
    exact hc ⟨a, ha, b, hb, hne, Subtype.ext hab⟩
  unfold mac hmac64 at e
  unfold hmacHashes at inj
  simp only [gt_iff_lt, hK, hK', Nat.reduceLT, if_false] at e inj
  have e1 := inj _ _ (by simp) (by simp) e
  have e2 := List.append_inj e1 (by simp)
  have e3 := inj _ _ (by simp) (by simp) e2.2
  have e4 := List.append_inj e3 (by simp)
  exact ⟨pads_inj (by omega) (by omega) e4.1, e4.2⟩

theorem state_lengths (H : Hashes) (x h j : Nat) :
    (state (mac H) x h j).1.length = 32 ∧ (state (mac H) x h j).2.length = 32 := by
  cases j <;> exact ⟨candidate_length H _ _, candidate_length H _ _⟩

/-- The inputs of SHA-256 up to the attempt number `j`. -/
abbrev tries (H : Hashes) (x h j : Nat) : List Bytes := nonceHashes (fun b => (H.sha256 b).1) x h j

theorem tries_succ (H : Hashes) (x h j : Nat) : tries H x h j ⊆ tries H x h (j + 1) := by
  intro b hb
  show b ∈ _ ++ _ ++ _ ++ _
  exact List.mem_append_left _ (List.mem_append_left _ (List.mem_append_left _ hb))

theorem tries_key_zero (H : Hashes) (x h : Nat) :
    hmacHashes 64 (fun b => (H.sha256 b).1)
      (mac H (List.replicate 32 0) (List.replicate 32 1 ++ [0] ++ ser256 x ++ ser256 (h % n)))
      (mac H (mac H (List.replicate 32 0) (List.replicate 32 1 ++ [0] ++ ser256 x ++ ser256 (h % n))) (List.replicate 32 1) ++
        [1] ++ ser256 x ++ ser256 (h % n)) ⊆ tries H x h 0 := by
  intro b hb
  show b ∈ (_ ++ _ ++ _ ++ _) ++ _
  exact List.mem_append_left _ (List.mem_append_left _ (List.mem_append_right _ hb))

theorem tries_key_succ (H : Hashes) (x h j : Nat) :
    hmacHashes 64 (fun b => (H.sha256 b).1) (state (mac H) x h j).1
      (mac H (state (mac H) x h j).1 (state (mac H) x h j).2 ++ [0]) ⊆ tries H x h (j + 1) := by
  intro b hb
  show b ∈ _ ++ _ ++ _ ++ _
  exact List.mem_append_left _ (List.mem_append_left _ (List.mem_append_right _ hb))

theorem tries_last (H : Hashes) (x h j : Nat) :
    hmacHashes 64 (fun b => (H.sha256 b).1) (state (mac H) x h j).1 (state (mac H) x h j).2 ⊆ tries H x h j := by
  intro b hb
  cases j with
  | zero => exact List.mem_append_right _ hb
  | succ j => exact List.mem_append_right _ hb

theorem state_inj {H : Hashes} {x h x' h' : Nat} (j j' : Nat) (e : (state (mac H) x h j).1 = (state (mac H) x' h' j').1) :
    (j = j' ∧ ser256 x = ser256 x' ∧ ser256 (h % n) = ser256 (h' % n)) ∨
      Collides H.sha256 (tries H x h j) (tries H x' h' j') := by
  have cl := candidate_length H
  induction j generalizing j' with
  | zero =>
    cases j' with
    | zero =>
      rcases mac_inj (cl _ _) (cl _ _) e with ⟨_, h1⟩ | hc
      · obtain ⟨h2, h3⟩ := List.append_inj h1 (by simp [cl, ser256])
        obtain ⟨h4, h5⟩ := List.append_inj h2 (by simp [cl])
        exact .inl ⟨rfl, h5, h3⟩
      · exact .inr (hc.mono (tries_key_zero H x h) (tries_key_zero H x' h'))
    | succ j' =>
      rcases mac_inj (cl _ _) (state_lengths H _ _ _).1 e with ⟨_, h1⟩ | hc
      · have := congrArg List.length h1
        simp [cl, ser256] at this
      · exact .inr (hc.mono (tries_key_zero H x h) (tries_key_succ H x' h' j'))
  | succ j ih =>
    cases j' with
    | zero =>
      rcases mac_inj (state_lengths H _ _ _).1 (cl _ _) e with ⟨_, h1⟩ | hc
      · have := congrArg List.length h1
        simp [cl, ser256] at this
      · exact .inr (hc.mono (tries_key_succ H x h j) (tries_key_zero H x' h'))
    | succ j' =>
      rcases mac_inj (state_lengths H _ _ _).1 (state_lengths H _ _ _).1 e with ⟨h1, _⟩ | hc
      · rcases ih j' h1 with ⟨h1, h2⟩ | hc
        · exact .inl ⟨by rw [h1], h2⟩
        · exact .inr (hc.mono (tries_succ H x h j) (tries_succ H x' h' j'))
      · exact .inr (hc.mono (tries_key_succ H x h j) (tries_key_succ H x' h' j'))

/-- **C104** Two nonce candidates of RFC 6979 are equal only if they are the same attempt for the same private key and the
same message modulo n, or SHA-256 has the same digest for two different inputs that it is given on the way to them. -/
theorem C104_candidates_differ (H : Hashes) (sk sk' : SecretKey) (msg msg' : Bytes) (j j' : Nat)
    (e : candidate (mac H) sk.k (bytesVal msg) j = candidate (mac H) sk'.k (bytesVal msg') j') :
    (sk = sk' ∧ bytesVal msg % n = bytesVal msg' % n ∧ j = j') ∨
      Collides H.sha256 (nonceHashes (fun b => (H.sha256 b).1) sk.k (bytesVal msg) j)
        (nonceHashes (fun b => (H.sha256 b).1) sk'.k (bytesVal msg') j') := by
  replace e : beNat (mac H (state (mac H) sk.k (bytesVal msg) j).1 (state (mac H) sk.k (bytesVal msg) j).2) =
      beNat (mac H (state (mac H) sk'.k (bytesVal msg') j').1 (state (mac H) sk'.k (bytesVal msg') j').2) := by
    rw [← bytesVal_eq, ← bytesVal_eq]
    exact e
  have e1 := natBE_beNat (mac H (state (mac H) sk.k (bytesVal msg) j).1 (state (mac H) sk.k (bytesVal msg) j).2)
  have e2 := natBE_beNat (mac H (state (mac H) sk'.k (bytesVal msg') j').1 (state (mac H) sk'.k (bytesVal msg') j').2)
  rw [candidate_length, e] at e1
  rw [candidate_length] at e2
  rcases mac_inj (state_lengths H _ _ _).1 (state_lengths H _ _ _).1 (e1.symm.trans e2) with ⟨h0, _⟩ | hc
  · rcases state_inj j j' h0 with ⟨h1, h2, h3⟩ | hc
    · have n256 : n < 2 ^ 256 := by decide
      have h4 := congrArg bytesVal h2
      rw [ser256_val (Nat.lt_trans sk.lt n256), ser256_val (Nat.lt_trans sk'.lt n256)] at h4
      have h5 := congrArg bytesVal h3
      rw [ser256_val (Nat.lt_trans (Nat.mod_lt _ (by decide)) n256), ser256_val (Nat.lt_trans (Nat.mod_lt _ (by decide)) n256)] at h5
      exact .inl ⟨secret_ext h4, h5, h1⟩
    · exact .inr hc
  · exact .inr (hc.mono (tries_last H _ _ _) (tries_last H _ _ _))

theorem hmac64_agree {h h' : Bytes → Bytes} {k m : Bytes} (e : ∀ b ∈ hmacHashes 64 h k m, h' b = h b) :
    hmac64 h' k m = hmac64 h k m := by
  unfold hmac64
  unfold hmacHashes at e
  by_cases hk : k.length > 64
  · simp only [hk, if_true] at e ⊢
    rw [e k (by simp), e (_ ++ m) (by simp), e _ (by simp)]
  · simp only [hk, if_false] at e ⊢
    rw [e (_ ++ m) (by simp), e _ (by simp)]

/-- **C104** The lists of inputs are complete: the candidate depends on no other digest. -/
theorem C104_inputs_suffice (h h' : Bytes → Bytes) (x m j : Nat) (e : ∀ b ∈ nonceHashes h x m j, h' b = h b) :
    candidate (hmac64 h') x m j = candidate (hmac64 h) x m j := by
  have hinit : (∀ b ∈ initHashes h x m, h' b = h b) → init (hmac64 h') x m = init (hmac64 h) x m := by
    intro e
    unfold initHashes at e
    simp only [List.mem_append] at e
    unfold init
    simp only
    rw [hmac64_agree (k := List.replicate 32 0) fun b hb => e b (.inl (.inl (.inl hb)))]
    rw [hmac64_agree (m := List.replicate 32 1) fun b hb => e b (.inl (.inl (.inr hb)))]
    rw [hmac64_agree (m := _ ++ ser256 (m % n)) fun b hb => e b (.inl (.inr hb))]
    rw [hmac64_agree fun b hb => e b (.inr hb)]
  have key : ∀ j, (∀ b ∈ nonceHashes h x m j, h' b = h b) → state (hmac64 h') x m j = state (hmac64 h) x m j := by
    intro j
    induction j with
    | zero => intro e; exact hinit fun b hb => e b (List.mem_append_left _ hb)
    | succ j ih =>
      intro e
      unfold nonceHashes at e
      simp only [List.mem_append] at e
      have e0 := ih fun b hb => e b (.inl (.inl (.inl hb)))
      unfold state
      simp only
      rw [e0]
      have e1 : hmac64 h' (state (hmac64 h) x m j).1 (state (hmac64 h) x m j).2 =
          hmac64 h (state (hmac64 h) x m j).1 (state (hmac64 h) x m j).2 := by
        apply hmac64_agree
        intro b hb
        refine e b (.inl (.inl (.inl ?_)))
        cases j with
        | zero => exact List.mem_append_right _ hb
        | succ j => exact List.mem_append_right _ hb
      rw [e1]
      rw [hmac64_agree (m := _ ++ [0]) fun b hb => e b (.inl (.inl (.inr hb)))]
      rw [hmac64_agree fun b hb => e b (.inl (.inr hb))]
  unfold candidate
  rw [key j e]
  congr 1
  apply hmac64_agree
  intro b hb
  apply e
  cases j with
  | zero => exact List.mem_append_right _ hb
  | succ j => exact List.mem_append_right _ hb

/-! ### what a signature consists of -/

theorem sign_facts {H : Hashes} {debug : Bool} {fuel : Nat} {sk : SecretKey} {msg : Bytes} {sig : ByteArr 64} {v : UInt8}
    (h : ecdsaSign H debug fuel sk msg = some (.ok (sig, v))) :
    ∃ j r s k x y, j < fuel ∧ sig.1 = ser256 r ++ ser256 s ∧ r < n ∧ 0 < s ∧ s ≤ n / 2 ∧
      0 < candidate (mac H) sk.k (bytesVal msg) j ∧ candidate (mac H) sk.k (bytesVal msg) j < n ∧
      (k = candidate (mac H) sk.k (bytesVal msg) j ∨ k = n - candidate (mac H) sk.k (bytesVal msg) j) ∧
      HasCoords (k • G) x y ∧ r = x % n ∧ v.toNat = (if n ≤ x then 2 else 0) + y % 2 ∧
      k * s % n = (bytesVal msg + r * sk.k) % n := by
  have hl : msg.length = 32 := by
    by_contra hl
    rw [(C51_input_length H debug fuel sk msg).2 hl] at h
    simp at h
  have h' : ecdsaSign H false fuel sk msg = some (.ok (sig, v)) := by
    cases debug with
    | false => exact h
    | true => exact ((C62_debug_build H fuel sk msg hl).1 sig v h).1
  obtain ⟨j, hj, _, hu, r, s, hsig, h0, h1, k, x, y, hk, hc, hr, hv, he⟩ := ((C61_rfc6979 H sk msg hl).1 fuel sig v).1 h'
  unfold Unusable at hu
  push Not at hu
  refine ⟨j, r, s, k, x, y, hj, hsig, ?_, h0, h1, Nat.pos_of_ne_zero hu.1, hu.2.1, hk, hc, hr, hv, he⟩
  rw [hr]
  exact Nat.mod_lt _ (by decide)

theorem sig_parts {sig : ByteArr 64} {r s : Nat} (h : sig.1 = ser256 r ++ ser256 s) (hr : r < n) (hs : s ≤ n / 2) :
    bytesVal (sig.1.take 32) = r ∧ bytesVal (sig.1.drop 32) = s := by
  have n256 : n < 2 ^ 256 := by decide
  rw [h, List.take_left' (by simp [ser256]), List.drop_left' (by simp [ser256]), ser256_val (by omega), ser256_val (by omega)]
  exact ⟨rfl, rfl⟩

/-- The x coordinate is known from r and the recovery id. -/
theorem x_of_id {x x' y y' v v' : Nat} {P P' : Point} (hc : HasCoords P x y) (hc' : HasCoords P' x' y') (hr : x % n = x' % n)
    (hv : v = (if n ≤ x then 2 else 0) + y % 2) (hv' : v' = (if n ≤ x' then 2 else 0) + y' % 2) (h : v / 2 = v' / 2) :
    x = x' ∧ (v = v' ↔ y % 2 = y' % 2) := by
  have h1 : x < 2 * n := Nat.lt_trans (Secp.coords_lt hc).1 Secp.p_lt_two_n
  have h1' : x' < 2 * n := Nat.lt_trans (Secp.coords_lt hc').1 Secp.p_lt_two_n
  have hx : x = x' := by
    by_cases a : n ≤ x <;> by_cases a' : n ≤ x' <;> simp only [a, a', if_true, if_false] at hv hv'
    · rw [Nat.mod_eq_sub_mod a, Nat.mod_eq_sub_mod a', Nat.mod_eq_of_lt (by omega), Nat.mod_eq_of_lt (by omega)] at hr
      omega
    · omega
    · omega
    · rwa [Nat.mod_eq_of_lt (by omega), Nat.mod_eq_of_lt (by omega)] at hr
  refine ⟨hx, ?_⟩
  subst hx
  omega

theorem nonce_lt {c k : Nat} (h0 : 0 < c) (h1 : c < n) (h : k = c ∨ k = n - c) : 0 < k ∧ k < n := by omega

/-- Two nonces whose points have the same x coordinate are equal or each other's negative, as the parity of y says. -/
theorem nonce_pm {k k' x y y' : Nat} (hk : 0 < k ∧ k < n) (hk' : 0 < k' ∧ k' < n) (h : HasCoords (k • G) x y)
    (h' : HasCoords (k' • G) x y') : (y % 2 = y' % 2 → k = k') ∧ (y % 2 ≠ y' % 2 → k' = n - k) := by
  refine ⟨nonce_unique hk.2 hk'.2 h h', fun hy => ?_⟩
  have hn := Secp.coords_neg h
  rw [← Secp.smul_neg_G hk.2] at hn
  have hp : p % 2 = 1 := by decide
  have h1 : y < p := (Secp.coords_lt h).2.1
  refine nonce_unique hk'.2 (show n - k < n by omega) h' hn ?_
  show y' % 2 = (p - y) % 2
  omega

/-- **C104** If two signatures that `ecdsa_sign` returned have points with the same x coordinate (the same r and the same
bit 1 of the recovery id), then they are signatures by the same key of the same message modulo n, or SHA-256 has the same
digest for two different inputs that it is given on the way to them, or one nonce is the other's negative modulo n. -/
theorem C104_same_r (H : Hashes) (debug debug' : Bool) (fuel fuel' : Nat) (sk sk' : SecretKey) (msg msg' : Bytes)
    (sig sig' : ByteArr 64) (v v' : UInt8) (h : ecdsaSign H debug fuel sk msg = some (.ok (sig, v)))
    (h' : ecdsaSign H debug' fuel' sk' msg' = some (.ok (sig', v'))) (hr : sig.1.take 32 = sig'.1.take 32)
    (hv : v.toNat / 2 = v'.toNat / 2) :
    (sk = sk' ∧ bytesVal msg % n = bytesVal msg' % n) ∨ ∃ j < fuel, ∃ j' < fuel',
      Collides H.sha256 (nonceHashes (fun b => (H.sha256 b).1) sk.k (bytesVal msg) j)
        (nonceHashes (fun b => (H.sha256 b).1) sk'.k (bytesVal msg') j') ∨
      candidate (mac H) sk.k (bytesVal msg) j + candidate (mac H) sk'.k (bytesVal msg') j' = n := by
  obtain ⟨j, r, s, k, x, y, hj, hs, hrn, _, hs2, c0, c1, hk, hc, er, ev, _⟩ := sign_facts h
  obtain ⟨j', r', s', k', x', y', hj', hs', hrn', _, hs2', c0', c1', hk', hc', er', ev', _⟩ := sign_facts h'
  have err : r = r' := by rw [← (sig_parts hs hrn hs2).1, ← (sig_parts hs' hrn' hs2').1, hr]
  obtain ⟨hx, _⟩ := x_of_id hc hc' (by rw [← er, ← er', err]) ev ev' hv
  subst hx
  have hpm := nonce_pm (nonce_lt c0 c1 hk) (nonce_lt c0' c1' hk') hc hc'
  have hcc : candidate (mac H) sk.k (bytesVal msg) j = candidate (mac H) sk'.k (bytesVal msg') j' ∨
      candidate (mac H) sk.k (bytesVal msg) j + candidate (mac H) sk'.k (bytesVal msg') j' = n := by
    by_cases hy : y % 2 = y' % 2
    · have := hpm.1 hy
      omega
    · have := hpm.2 hy
      omega
  rcases hcc with hcc | hcc
  · rcases C104_candidates_differ H sk sk' msg msg' j j' hcc with ⟨a, b, _⟩ | a
    · exact .inl ⟨a, b⟩
    · exact .inr ⟨j, hj, j', hj', .inl a⟩
  · exact .inr ⟨j, hj, j', hj', .inr hcc⟩

instance : Fact n.Prime := ⟨Spec.Secp.n_prime⟩

theorem cast_mod {a b : Nat} (h : a % n = b % n) : (a : ZMod n) = b := (ZMod.natCast_eq_natCast_iff a b n).2 h

/-- **C104** Why that matters: if one key signs two messages that differ modulo n and the signatures have the same r, not
zero, and the same bit 1 of the recovery id, then the private key is a quotient of numbers that everyone can compute from the
signatures. -/
theorem C104_reuse_reveals_key (H H' : Hashes) (debug debug' : Bool) (fuel fuel' : Nat) (sk : SecretKey) (msg msg' : Bytes)
    (sig sig' : ByteArr 64) (v v' : UInt8) (h : ecdsaSign H debug fuel sk msg = some (.ok (sig, v)))
    (h' : ecdsaSign H' debug' fuel' sk msg' = some (.ok (sig', v'))) (hm : bytesVal msg % n ≠ bytesVal msg' % n)
    (hr : sig.1.take 32 = sig'.1.take 32) (hr0 : sig.1.take 32 ≠ List.replicate 32 0) (hv : v.toNat / 2 = v'.toNat / 2) :
    let m : ZMod n := (bytesVal msg : Nat)
    let m' : ZMod n := (bytesVal msg' : Nat)
    let r : ZMod n := (bytesVal (sig.1.take 32) : Nat)
    let s : ZMod n := (bytesVal (sig.1.drop 32) : Nat)
    let s' : ZMod n := (bytesVal (sig'.1.drop 32) : Nat)
    (v = v' → r * (s' - s) ≠ 0 ∧ (sk.k : ZMod n) = (s * m' - s' * m) / (r * (s' - s))) ∧
    (v ≠ v' → r * (s' + s) ≠ 0 ∧ (sk.k : ZMod n) = -(s * m' + s' * m) / (r * (s' + s))) := by
  obtain ⟨j, r, s, k, x, y, hj, hs, hrn, hs0, hs2, c0, c1, hk, hc, er, ev, he⟩ := sign_facts h
  obtain ⟨j', r', s', k', x', y', hj', hs', hrn', hs0', hs2', c0', c1', hk', hc', er', ev', he'⟩ := sign_facts h'
  obtain ⟨p1, p2⟩ := sig_parts hs hrn hs2
  obtain ⟨p1', p2'⟩ := sig_parts hs' hrn' hs2'
  have err : r' = r := by rw [← p1, ← p1', hr]
  subst err
  obtain ⟨hx, hvy⟩ := x_of_id hc hc' (by rw [← er, ← er']) ev ev' hv
  subst hx
  have hpm := nonce_pm (nonce_lt c0 c1 hk) (nonce_lt c0' c1' hk') hc hc'
  have hkn := nonce_lt c0 c1 hk
  have rne : (r' : ZMod n) ≠ 0 := by
    rw [Ne, ZMod.natCast_eq_zero_iff]
    intro hd
    have : r' = 0 := Nat.eq_zero_of_dvd_of_lt hd hrn
    apply hr0
    rw [hs, this, List.take_left' (by simp [ser256])]
    decide
  have e1 := cast_mod he
  have e2 := cast_mod he'
  push_cast at e1 e2
  have mne : ((bytesVal msg : Nat) : ZMod n) ≠ (bytesVal msg' : Nat) := by
    rw [Ne, ZMod.natCast_eq_natCast_iff]
    exact hm
  have hvv : v = v' ↔ y % 2 = y' % 2 := by
    rw [← hvy]
    exact ⟨fun e => by rw [e], fun e => UInt8.toNat_inj.1 e⟩
  simp only [p1, p2, p2']
  refine ⟨fun e => ?_, fun e => ?_⟩
  · have hkk := hpm.1 (hvv.1 e)
    subst hkk
    have sne : (s' : ZMod n) - s ≠ 0 := by
      intro h0
      have : (s' : ZMod n) = s := sub_eq_zero.1 h0
      rw [this, e1] at e2
      exact mne (add_right_cancel e2)
    refine ⟨mul_ne_zero rne sne, ?_⟩
    rw [eq_div_iff (mul_ne_zero rne sne)]
    linear_combination (-(s' : ZMod n)) * e1 + (s : ZMod n) * e2
  · have hkk := hpm.2 (fun a => e (hvv.2 a))
    have ek : (k' : ZMod n) = - (k : ZMod n) := by
      rw [hkk, Nat.cast_sub hkn.2.le]
      simp
    have sne : (s' : ZMod n) + s ≠ 0 := by
      intro h0
      have : ((s' + s : Nat) : ZMod n) = 0 := by push_cast; exact h0
      rw [ZMod.natCast_eq_zero_iff] at this
      have := Nat.le_of_dvd (by omega) this
      have : n % 2 = 1 := by decide
      omega
    refine ⟨mul_ne_zero rne sne, ?_⟩
    rw [eq_div_iff (mul_ne_zero rne sne)]
    rw [ek] at e2
    linear_combination (-(s' : ZMod n)) * e1 - (s : ZMod n) * e2

/-- **C105** A signature with its recovery id, if r is not zero, belongs to one key for each message modulo n, and to one
message modulo n for each key; if r is zero, it belongs to one message modulo n. -/
theorem C105_signature_binds (H H' : Hashes) (debug debug' : Bool) (fuel fuel' : Nat) (sk sk' : SecretKey) (msg msg' : Bytes)
    (sig : ByteArr 64) (v : UInt8) (h : ecdsaSign H debug fuel sk msg = some (.ok (sig, v)))
    (h' : ecdsaSign H' debug' fuel' sk' msg' = some (.ok (sig, v))) :
    (sig.1.take 32 ≠ List.replicate 32 0 → (sk = sk' ↔ bytesVal msg % n = bytesVal msg' % n)) ∧
    (sig.1.take 32 = List.replicate 32 0 → bytesVal msg % n = bytesVal msg' % n) := by
  obtain ⟨j, r, s, k, x, y, hj, hs, hrn, hs0, hs2, c0, c1, hk, hc, er, ev, he⟩ := sign_facts h
  obtain ⟨j', r', s', k', x', y', hj', hs', hrn', hs0', hs2', c0', c1', hk', hc', er', ev', he'⟩ := sign_facts h'
  obtain ⟨p1, p2⟩ := sig_parts hs hrn hs2
  obtain ⟨p1', p2'⟩ := sig_parts hs' hrn' hs2'
  have err : r' = r := by rw [← p1, ← p1']
  have ess : s' = s := by rw [← p2, ← p2']
  subst err ess
  obtain ⟨hx, hvy⟩ := x_of_id hc hc' (by rw [← er, ← er']) ev ev' rfl
  subst hx
  have hkk := (nonce_pm (nonce_lt c0 c1 hk) (nonce_lt c0' c1' hk') hc hc').1 (hvy.1 rfl)
  subst hkk
  have e := cast_mod (he.symm.trans he')
  push_cast at e
  refine ⟨fun hr0 => ?_, fun hr0 => ?_⟩
  · have rne : (r' : ZMod n) ≠ 0 := by
      rw [Ne, ZMod.natCast_eq_zero_iff]
      intro hd
      have : r' = 0 := Nat.eq_zero_of_dvd_of_lt hd hrn
      apply hr0
      rw [hs, this, List.take_left' (by simp [ser256])]
      decide
    rw [show (bytesVal msg % n = bytesVal msg' % n) ↔ ((bytesVal msg : Nat) : ZMod n) = (bytesVal msg' : Nat) from
      (ZMod.natCast_eq_natCast_iff _ _ n).symm]
    constructor
    · rintro rfl
      exact add_right_cancel e
    · intro hm
      rw [hm] at e
      have e2 := mul_left_cancel₀ rne (add_left_cancel e)
      have e3 := (ZMod.natCast_eq_natCast_iff _ _ n).1 e2
      have e4 : sk.k % Secp.n = sk'.k % Secp.n := e3
      rw [Nat.mod_eq_of_lt sk.lt, Nat.mod_eq_of_lt sk'.lt] at e4
      exact secret_ext e4
  · rw [hr0] at p1
    have : r' = 0 := by rw [← p1]; decide
    subst this
    exact (ZMod.natCast_eq_natCast_iff _ _ n).1 (by simpa using e)

/-- Hash functions for which C104 is not vacuous: SHA-256 is always 1, so that the nonce is always 1, and the key 1 signs two
messages with the same r. -/
theorem reuse_case : ∃ sig sig' : ByteArr 64, ∃ v : UInt8,
    ecdsaSign (constSha256 1) false 1 exKey.privateKey (List.replicate 32 0) = some (.ok (sig, v)) ∧
    ecdsaSign (constSha256 1) false 1 exKey.privateKey (List.replicate 32 1) = some (.ok (sig', v)) ∧
    bytesVal (List.replicate 32 0) % n ≠ bytesVal (List.replicate 32 1) % n ∧ sig.1.take 32 = sig'.1.take 32 ∧
    sig.1.take 32 ≠ List.replicate 32 0 := by
  refine ⟨⟨natBE 32 Spec.Secp.gx ++ natBE 32 Spec.Secp.gx, by simp⟩,
    ⟨natBE 32 Spec.Secp.gx ++ natBE 32 (Spec.Secp.gx + bytesVal (List.replicate 32 1)), by simp⟩, 0, ?_, ?_, ?_, ?_, ?_⟩ <;>
    decide +kernel

-- the key 1 is read off the two signatures
example : ∃ sig sig' : ByteArr 64, ∃ v : UInt8,
    ecdsaSign (constSha256 1) false 1 exKey.privateKey (List.replicate 32 0) = some (.ok (sig, v)) ∧
    ecdsaSign (constSha256 1) false 1 exKey.privateKey (List.replicate 32 1) = some (.ok (sig', v)) ∧
    (1 : ZMod n) = ((bytesVal (sig.1.drop 32) : Nat) * (bytesVal (List.replicate 32 1) : Nat) -
        (bytesVal (sig'.1.drop 32) : Nat) * (bytesVal (List.replicate 32 0) : Nat)) /
      ((bytesVal (sig.1.take 32) : Nat) * ((bytesVal (sig'.1.drop 32) : Nat) - (bytesVal (sig.1.drop 32) : Nat))) := by
  obtain ⟨sig, sig', v, h, h', hm, hr, hr0⟩ := reuse_case
  have := ((C104_reuse_reveals_key _ _ _ _ _ _ _ _ _ _ _ _ _ h h' hm hr hr0 rfl).1 rfl).2
  exact ⟨sig, sig', v, h, h', by simpa [exKey] using this⟩

-- the first attempt hashes ten inputs
example : (nonceHashes (fun b => ((constSha256 1).sha256 b).1) 1 0 0).length = 10 := by decide +kernel

-- one signature, made twice
example : ∃ sig v, ecdsaSign (constSha256 1) false 1 exKey.privateKey (List.replicate 32 0) = some (.ok (sig, v)) ∧
    sig.1.take 32 ≠ List.replicate 32 0 := by
  obtain ⟨sig, _, v, h, _, _, _, hr0⟩ := reuse_case
  exact ⟨sig, v, h, hr0⟩

end Kms.Props
