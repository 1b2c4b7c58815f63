import Verif.Props.Derivation
import Verif.Props.Seed
/-
Properties C19 (second half), C35 to C37, C50, C52, C55, C57, C58: ranges, outcomes and public keys.
-/
namespace Kms.Props
open Kms.Bip32 Kms.Spec.Bip32
open Kms.Spec.Secp (Point G n p HasCoords)
open Kms.Secp (SecretKey)

/-- What HMAC gives with the hash functions of the examples. -/
theorem const_hmac (v : Nat) (a b : Bytes) : ((constHash v).hmacSha512 a b).1 = natBE 32 v ++ natBE 32 7 := rfl

theorem const_IL {v : Nat} (hv : v < 2 ^ 256) : IL (natBE 32 v ++ natBE 32 7) = v := by
  unfold IL parse256
  rw [bytesVal_eq, List.take_left' (by simp), beNat_natBE]
  exact Nat.mod_eq_of_lt (Nat.lt_of_lt_of_le hv (by decide))

theorem const_I {v : Nat} (hv : v < 2 ^ 256) (k : XPrv) (i : ChildNumber) :
    IL (I (specHash (constHash v)) k.attrs.chainCode.1 k.privateKey.k i.n.toNat) = v := by
  rw [← XPrv.hmac_eq, const_hmac, const_IL hv]

/-- C34 is not vacuous: with `I_L = 2` the hardened child 0 of the private key 1 is the private key 3. -/
example : ∃ c, exKey.deriveChild (constHash 2) ⟨0x80000000⟩ = .ok c ∧ c.privateKey.k = 3 := by
  rcases xprv_outcome (constHash 2) exKey ⟨0x80000000⟩ with ⟨h, _⟩ | ⟨_, h, _⟩ | ⟨_, _, h, _⟩ | ⟨_, _, _, c, h, hk, _⟩
  · exact absurd h (by decide)
  · rw [const_I (by decide)] at h; exact absurd h (by decide)
  · rw [const_I (by decide)] at h; exact absurd h (by decide)
  · rw [const_I (by decide)] at hk
    exact ⟨c, h, hk.trans (by decide)⟩

/-- The outcome of a public derivation step, for every public key that is a point `Q` of the curve. -/
theorem xpub_outcome (H : Hashes) (k : XPub) (Q : Point) (hQ : HasCoords Q k.publicKey.x k.publicKey.y) (i : ChildNumber) :
    (2 ^ 31 ≤ i.n.toNat ∧ k.deriveChild H i = .err .childNumber) ∨
    (i.n.toNat < 2 ^ 31 ∧ k.attrs.depth.toNat = 255 ∧ k.deriveChild H i = .err .depth) ∨
    (i.n.toNat < 2 ^ 31 ∧ k.attrs.depth.toNat < 255 ∧
      (IL (Ipub (specHash H) k.attrs.chainCode.1 Q i.n.toNat) = 0 ∨
        n ≤ IL (Ipub (specHash H) k.attrs.chainCode.1 Q i.n.toNat)) ∧ k.deriveChild H i = .panic) ∨
    (i.n.toNat < 2 ^ 31 ∧ k.attrs.depth.toNat < 255 ∧
      (0 < IL (Ipub (specHash H) k.attrs.chainCode.1 Q i.n.toNat) ∧
        IL (Ipub (specHash H) k.attrs.chainCode.1 Q i.n.toNat) < n) ∧
      Q + IL (Ipub (specHash H) k.attrs.chainCode.1 Q i.n.toNat) • G = 0 ∧ k.deriveChild H i = .err .crypto) ∨
    (i.n.toNat < 2 ^ 31 ∧ k.attrs.depth.toNat < 255 ∧
      (0 < IL (Ipub (specHash H) k.attrs.chainCode.1 Q i.n.toNat) ∧
        IL (Ipub (specHash H) k.attrs.chainCode.1 Q i.n.toNat) < n) ∧
      Q + IL (Ipub (specHash H) k.attrs.chainCode.1 Q i.n.toNat) • G ≠ 0 ∧
      ∃ c, k.deriveChild H i = .ok c ∧
        HasCoords (Q + IL (Ipub (specHash H) k.attrs.chainCode.1 Q i.n.toNat) • G) c.publicKey.x c.publicKey.y ∧
        c.attrs.chainCode.1 = IR (Ipub (specHash H) k.attrs.chainCode.1 Q i.n.toNat) ∧
        c.attrs.depth.toNat = k.attrs.depth.toNat + 1 ∧ c.attrs.childNumber = i ∧
        c.attrs.parentFingerprint.1 = fingerprint (specHash H) Q) := by
  have hrep := Secp.rep_coords.2 hQ
  by_cases hh : i.isHardened = true
  · left
    exact ⟨(ChildNumber.isHardened_iff i).1 hh, by rw [XPub.deriveChild_eq, if_pos hh]⟩
  have hi : i.n.toNat < 2 ^ 31 := by
    rw [ChildNumber.isHardened_iff] at hh; omega
  right
  rw [XPub.deriveChild_eq, if_neg hh]
  rcases checkedSucc_cases k.attrs.depth with ⟨hd, h1, h2⟩ | ⟨hd, h1⟩
  · right
    have hI := XPub.hmac_eq H hrep i
    have hL : beNat (left (H.hmacSha512 k.attrs.chainCode.1 ((PublicKey.toBytes k.publicKey).1 ++ i.toBytes.1))).1 =
        IL (Ipub (specHash H) k.attrs.chainCode.1 Q i.n.toNat) := by
      unfold IL parse256
      rw [bytesVal_eq, ← hI]
      rfl
    have hR : (right (H.hmacSha512 k.attrs.chainCode.1 ((PublicKey.toBytes k.publicKey).1 ++ i.toBytes.1))).1 =
        IR (Ipub (specHash H) k.attrs.chainCode.1 Q i.n.toNat) := by
      unfold IR
      rw [← hI]
      rfl
    rw [h1]
    simp only [Res.ofOption_some, Res.ok_bind]
    have hc := PublicKey.deriveChild_cases hrep
      (left (H.hmacSha512 k.attrs.chainCode.1 ((PublicKey.toBytes k.publicKey).1 ++ i.toBytes.1)))
    rw [hL, Secp.n_eq] at hc
    rcases hc with ⟨ha, hb⟩ | ⟨ha, hb, hc⟩ | ⟨ha, hb, u, hc, hu⟩
    · exact .inl ⟨hi, hd, ha, by rw [hb]; rfl⟩
    · exact .inr (.inl ⟨hi, hd, ha, hb, by rw [hc]; rfl⟩)
    · refine .inr (.inr ⟨hi, hd, ha, hb, ?_⟩)
      rw [hc]
      exact ⟨_, rfl, Secp.rep_coords.1 hu, hR, h2, rfl, fingerprint_eq H hrep⟩
  · left
    exact ⟨hi, hd, by rw [h1]; rfl⟩

/-- C57. `derive_child` of a public key that is the point `Q` returns the key `c` exactly when the number is not
hardened, the depth is below 255, `I_L` is in [1, n-1] and `Q + I_L G` is not infinity, and then `c` is BIP32's public
child: the point `Q + I_L G`, chain code `I_R`, depth one more, the requested number, the fingerprint of `Q`. -/
theorem C57_public_child_key (H : Hashes) (k c : XPub) (Q : Point) (hQ : HasCoords Q k.publicKey.x k.publicKey.y)
    (i : ChildNumber) :
    let I := Ipub (specHash H) k.attrs.chainCode.1 Q i.n.toNat
    k.deriveChild H i = .ok c ↔
      i.n.toNat < 2 ^ 31 ∧ k.attrs.depth.toNat < 255 ∧ 0 < IL I ∧ IL I < n ∧
      HasCoords (Q + IL I • G) c.publicKey.x c.publicKey.y ∧ c.attrs.chainCode.1 = IR I ∧
      c.attrs.depth.toNat = k.attrs.depth.toNat + 1 ∧ c.attrs.childNumber = i ∧
      c.attrs.parentFingerprint.1 = fingerprint (specHash H) Q := by
  intro J
  constructor
  · intro h
    rcases xpub_outcome H k Q hQ i with ⟨_, h'⟩ | ⟨_, _, h'⟩ | ⟨_, _, _, h'⟩ | ⟨_, _, _, _, h'⟩ |
      ⟨hi, hd, ha, hb, c', h', hf⟩
    · rw [h'] at h; cases h
    · rw [h'] at h; cases h
    · rw [h'] at h; cases h
    · rw [h'] at h; cases h
    · rw [h'] at h; cases h
      exact ⟨hi, hd, ha.1, ha.2, hf⟩
  · rintro ⟨hi, hd, ha1, ha2, hf⟩
    rcases xpub_outcome H k Q hQ i with ⟨h1, _⟩ | ⟨_, h1, _⟩ | ⟨_, _, h1, _⟩ | ⟨_, _, _, h1, _⟩ |
      ⟨_, _, _, _, c', h', hf'⟩
    · omega
    · omega
    · exfalso
      change (IL J = 0 ∨ n ≤ IL J) at h1
      omega
    · have := hf.1
      change Q + IL J • G = 0 at h1
      rw [h1] at this
      exact this.elim
    · rw [h']
      congr 1
      obtain ⟨f1, f2, f3, f4, f5⟩ := hf
      obtain ⟨g1, g2, g3, g4, g5⟩ := hf'
      have e1 := Secp.ofPublic_unique (Secp.rep_coords.2 g1) (Secp.rep_coords.2 f1)
      obtain ⟨cp, ⟨cd, cf, cn, cc⟩⟩ := c
      obtain ⟨cp', ⟨cd', cf', cn', cc'⟩⟩ := c'
      simp only at *
      have e2 : cc' = cc := Subtype.ext (g2.trans f2.symm)
      have e3 : cd' = cd := UInt8.toNat_inj.1 (g3.trans f3.symm)
      have e4 : cn' = cn := g4.trans f4.symm
      have e5 : cf' = cf := Subtype.ext (g5.trans f5.symm)
      subst e1 e2 e3 e4 e5
      rfl

-- the point 3 G, from G and the hash alone
example : ((exKey.publicKey.deriveChild (constHash 2) ⟨1⟩).map (fun c => c.publicKey.x)) =
    .ok 0xF9308A019258C31049344F85F89D5229B531C845836F99B08601F113BCE036F9 := by
  decide +kernel

/-- The public key of every private key meets the hypothesis of C57. -/
theorem publicKey_coords (k : XPrv) :
    HasCoords (k.privateKey.k • G) k.publicKey.publicKey.x k.publicKey.publicKey.y :=
  Secp.rep_coords.1 (Secp.fromSecretKey_rep k.privateKey)

/-- C35, as stated it is false: with an `I_L` of 0, or of n or more, `derive_child` panics, for every key of depth
below 255 and every number; for public keys too (numbers that are not hardened). -/
theorem C35_derive_child_can_panic (k : XPrv) (i : ChildNumber) (v : Nat) (hd : k.attrs.depth.toNat < 255)
    (hv : v < 2 ^ 256) (hbad : v = 0 ∨ n ≤ v) :
    k.deriveChild (constHash v) i = .panic ∧
    (i.n.toNat < 2 ^ 31 → k.publicKey.deriveChild (constHash v) i = .panic) := by
  have h1 : k.deriveChild (constHash v) i = .panic := by
    rcases xprv_outcome (constHash v) k i with ⟨h, _⟩ | ⟨_, _, h⟩ | ⟨_, h, _⟩ | ⟨_, h, _⟩
    · omega
    · exact h
    · rw [const_I hv] at h; omega
    · rw [const_I hv] at h; omega
  refine ⟨h1, fun hi => ?_⟩
  rw [← public_derive_child _ k i hi, h1]
  rfl

/-- Both bad values occur. -/
example : exKey.deriveChild (constHash 0) ⟨7⟩ = .panic ∧ exKey.deriveChild (constHash n) ⟨7⟩ = .panic :=
  ⟨(C35_derive_child_can_panic exKey ⟨7⟩ 0 (by decide) (by decide) (.inl rfl)).1,
   (C35_derive_child_can_panic exKey ⟨7⟩ n (by decide) (by decide) (.inr (Nat.le_refl _))).1⟩

/-- C35, what holds.  Missing: that an out-of-range `I_L` is an error; it is a panic.
`derive_child` panics exactly when the depth is below 255 and `I_L` is 0 or at least n; it returns the error `Depth`
exactly at depth 255, and `Crypto` exactly when `I_L + k` is 0 modulo n; no other error occurs. -/
theorem C35_derive_child_outcome_partial (H : Hashes) (k : XPrv) (i : ChildNumber) :
    let I := I (specHash H) k.attrs.chainCode.1 k.privateKey.k i.n.toNat
    (k.deriveChild H i = .panic ↔ k.attrs.depth.toNat < 255 ∧ (IL I = 0 ∨ n ≤ IL I)) ∧
    (∀ e, k.deriveChild H i = .err e ↔ (k.attrs.depth.toNat = 255 ∧ e = .depth) ∨
      (k.attrs.depth.toNat < 255 ∧ 0 < IL I ∧ IL I < n ∧ (IL I + k.privateKey.k) % n = 0 ∧ e = .crypto)) := by
  intro J
  rcases xprv_outcome H k i with ⟨h1, h'⟩ | ⟨hd, h1, h'⟩ | ⟨hd, h1, h2, h'⟩ | ⟨hd, h1, h2, c, h', hf⟩
  · rw [h']
    refine ⟨⟨by simp, by omega⟩, fun e => ⟨?_, ?_⟩⟩
    · intro h; cases h; exact .inl ⟨h1, rfl⟩
    · rintro (⟨_, rfl⟩ | ⟨h, _⟩)
      · rfl
      · omega
  · rw [h']
    change (IL J = 0 ∨ n ≤ IL J) at h1
    refine ⟨⟨fun _ => ⟨hd, h1⟩, fun _ => rfl⟩, fun e => ⟨by simp, ?_⟩⟩
    rintro (⟨h, _⟩ | ⟨_, h, h'', _⟩) <;> omega
  · rw [h']
    change (0 < IL J ∧ IL J < n) at h1
    change (IL J + k.privateKey.k) % n = 0 at h2
    refine ⟨⟨by simp, by omega⟩, fun e => ⟨?_, ?_⟩⟩
    · intro h; cases h; exact .inr ⟨hd, h1.1, h1.2, h2, rfl⟩
    · rintro (⟨h, _⟩ | ⟨_, _, _, _, rfl⟩)
      · omega
      · rfl
  · rw [h']
    change (0 < IL J ∧ IL J < n) at h1
    change (IL J + k.privateKey.k) % n ≠ 0 at h2
    refine ⟨⟨by simp, by omega⟩, fun e => ⟨by simp, ?_⟩⟩
    rintro (⟨h, _⟩ | ⟨_, _, _, h, _⟩)
    · omega
    · exact absurd h h2

-- a panic and each error
example : exKey.deriveChild (constHash 0) ⟨1⟩ = .panic ∧ exKey.deriveChild (constHash n) ⟨1⟩ = .panic ∧
    exKey.deriveChild (constHash (n - 1)) ⟨1⟩ = .err .crypto ∧
    (XPrv.mk exKey.privateKey { exKey.attrs with depth := 255 }).deriveChild (constHash 0) ⟨1⟩ = .err .depth := by
  decide +kernel

/-- C36. The outcome of `XPrv::new` on every byte string: `SeedLength` exactly when the length is not 16, 32, 64 or
128; otherwise `Crypto` exactly when the left half of `HMAC-SHA512("Bitcoin seed", seed)` is 0 or at least n; otherwise
the master key with depth 0, fingerprint 0, child number 0.  Never a panic. -/
theorem C36_master_key (H : Hashes) (seed : Bytes) :
    let I := master (specHash H) seed
    (XPrv.new H seed = .err .seedLength ↔ seed.length ∉ [16, 32, 64, 128]) ∧
    (XPrv.new H seed = .err .crypto ↔ seed.length ∈ [16, 32, 64, 128] ∧ (IL I = 0 ∨ n ≤ IL I)) ∧
    (∀ k, XPrv.new H seed = .ok k ↔ seed.length ∈ [16, 32, 64, 128] ∧ 0 < IL I ∧ IL I < n ∧
      k.privateKey.k = IL I ∧ k.attrs.chainCode.1 = IR I ∧ k.attrs.depth.toNat = 0 ∧
      k.attrs.childNumber = ⟨0⟩ ∧ k.attrs.parentFingerprint.1 = [0, 0, 0, 0]) ∧
    ((∃ k, XPrv.new H seed = .ok k) ∨ XPrv.new H seed = .err .seedLength ∨ XPrv.new H seed = .err .crypto) := by
  intro J
  have hJ : (H.hmacSha512 BIP39_DOMAIN_SEPARATOR seed).1 = J := by
    show _ = Spec.hmac _ _ seed
    rw [hmacSha512_spec]
    congr 1
  by_cases hs : seed.length ∈ [16, 32, 64, 128]
  swap
  · have h : XPrv.new H seed = .err .seedLength := by
      unfold XPrv.new
      rw [if_pos (by simp at hs ⊢; omega)]
    rw [h]
    refine ⟨by simp [hs], by simp [hs], fun k => ⟨by simp, fun h => absurd h.1 hs⟩, by simp⟩
  have hnew : XPrv.new H seed = (do
      let privateKey ← PrivateKey.fromBytes (left (H.hmacSha512 BIP39_DOMAIN_SEPARATOR seed))
      .ok ⟨privateKey, ⟨0, zeroArr 4, ChildNumber.default, right (H.hmacSha512 BIP39_DOMAIN_SEPARATOR seed)⟩⟩) := by
    unfold XPrv.new
    rw [if_neg (by simp at hs ⊢; omega)]
    simp only [tryInto_left, tryInto_right, Res.ok_bind]
  have hL : beNat (left (H.hmacSha512 BIP39_DOMAIN_SEPARATOR seed)).1 = IL J := by
    unfold IL parse256
    rw [bytesVal_eq, ← hJ]
    rfl
  have hR : (right (H.hmacSha512 BIP39_DOMAIN_SEPARATOR seed)).1 = IR J := by
    unfold IR
    rw [← hJ]
    rfl
  rw [hnew]
  unfold PrivateKey.fromBytes
  by_cases hr : 0 < IL J ∧ IL J < n
  · rw [SecretKey.parse_ok (by rw [hL]; exact hr)]
    simp only [cryptoErr, Res.mapErr_ok, Res.ok_bind]
    refine ⟨by simp [hs], ⟨by simp, fun h => by have := h.2; omega⟩, fun k => ⟨?_, ?_⟩, .inl ⟨_, rfl⟩⟩
    · intro h
      cases h
      exact ⟨hs, hr.1, hr.2, hL, hR, rfl, rfl, rfl⟩
    · rintro ⟨_, _, _, f1, f2, f3, f4, f5⟩
      congr 1
      exact xprv_ext (hL.trans f1.symm) (hR.trans f2.symm) f3.symm f4.symm f5.symm
  · rw [SecretKey.parse_err (by rw [hL]; exact hr)]
    simp only [cryptoErr, Res.mapErr_err, Res.err_bind]
    refine ⟨by simp [hs], ⟨fun _ => ⟨hs, by omega⟩, fun _ => trivial⟩, fun k => ⟨by simp, ?_⟩, .inr (.inr trivial)⟩
    rintro ⟨_, h1, h2, _⟩
    exact absurd ⟨h1, h2⟩ hr

/-- All three outcomes of C36 occur. -/
example : XPrv.new (constHash 1) [] = .err .seedLength ∧
    XPrv.new (constHash 0) (List.replicate 64 1) = .err .crypto ∧
    ∃ k, XPrv.new (constHash 5) (List.replicate 16 1) = .ok k ∧ k.privateKey.k = 5 := by
  refine ⟨(C36_master_key _ _).1.2 (by decide), (C36_master_key _ _).2.1.2 ⟨by decide, .inl ?_⟩, ?_⟩
  · decide +kernel
  · have h := (C36_master_key (constHash 5) (List.replicate 16 1))
    have hI : IL (master (specHash (constHash 5)) (List.replicate 16 1)) = 5 := by decide +kernel
    rcases h.2.2.2 with ⟨k, hk⟩ | h' | h'
    · exact ⟨k, hk, ((h.2.2.1 k).1 hk).2.2.2.1.trans hI⟩
    · exact absurd (h.1.1 h') (by decide)
    · have := (h.2.1.1 h').2
      rw [hI] at this
      exact absurd this (by decide)

/-- C19, second half. The length of a seed is always accepted. -/
theorem C19_seed_accepted (H : Hashes) (m : Bip39.Mnemonic) (pw : Str) :
    XPrv.new H (Bip39.Seed.new H m pw).bytes ≠ .err .seedLength := by
  intro h
  have := (C36_master_key H _).1.1 h
  rw [C19_seed_length] at this
  exact absurd this (by decide)

-- a length of 64 is accepted: the outcome is a key
example : ((XPrv.new (constHash 5) (List.replicate 64 1)).map (·.privateKey.k)) = .ok 5 := by
  decide +kernel

/-- Every way of obtaining an extended private key. -/
inductive ReachPrv (H : Hashes) : XPrv → Prop
  | new (seed : Bytes) (k : XPrv) : XPrv.new H seed = .ok k → ReachPrv H k
  | newFromPath (seed : Bytes) (path : DerivationPath) (k : XPrv) : XPrv.newFromPath H seed path = .ok k → ReachPrv H k
  | deriveChild (k : XPrv) (i : ChildNumber) (c : XPrv) : ReachPrv H k → k.deriveChild H i = .ok c → ReachPrv H c
  | deriveFromPath (k : XPrv) (path : DerivationPath) (c : XPrv) :
      ReachPrv H k → k.deriveFromPath H path = .ok c → ReachPrv H c
  | tryFrom (e : ExtendedKey) (k : XPrv) : XPrv.tryFrom e = .ok k → ReachPrv H k
  | fromStr (s : Str) (k : XPrv) : XPrv.fromStr H s = .ok k → ReachPrv H k

/-- Every way of obtaining an extended public key. -/
inductive ReachPub (H : Hashes) : XPub → Prop
  | publicKey (k : XPrv) : ReachPrv H k → ReachPub H k.publicKey
  | deriveChild (k : XPub) (i : ChildNumber) (c : XPub) : ReachPub H k → k.deriveChild H i = .ok c → ReachPub H c
  | deriveFromPath (k : XPub) (path : DerivationPath) (c : XPub) :
      ReachPub H k → k.deriveFromPath H path = .ok c → ReachPub H c
  | tryFrom (e : ExtendedKey) (k : XPub) : XPub.tryFrom e = .ok k → ReachPub H k
  | fromStr (s : Str) (k : XPub) : XPub.fromStr H s = .ok k → ReachPub H k

theorem deriveChild_coords (H : Hashes) {k c : XPub} {i : ChildNumber}
    (hk : ∃ Q, HasCoords Q k.publicKey.x k.publicKey.y) (h : k.deriveChild H i = .ok c) :
    ∃ Q, HasCoords Q c.publicKey.x c.publicKey.y := by
  obtain ⟨Q, hQ⟩ := hk
  exact ⟨_, ((C57_public_child_key H k c Q hQ i).1 h).2.2.2.2.1⟩

theorem tryFrom_coords {e : ExtendedKey} {k : XPub} (h : XPub.tryFrom e = .ok k) :
    ∃ Q, HasCoords Q k.publicKey.x k.publicKey.y := by
  unfold XPub.tryFrom at h
  split at h
  · rw [Res.bind_eq_ok] at h
    obtain ⟨P, hP, h⟩ := h
    cases h
    rcases Secp.PublicKey.parse_cases e.keyBytes with ⟨P', h1, h2, _⟩ | h1
    · unfold PublicKey.fromBytes at hP
      rw [h1] at hP
      cases hP
      exact ⟨_, Secp.rep_coords.1 (P.point_rep h2)⟩
    · unfold PublicKey.fromBytes at hP
      rw [h1] at hP
      cases hP
  · cases h

/-- Every reachable extended public key is a point of the curve. -/
theorem reach_pub (H : Hashes) {k : XPub} (h : ReachPub H k) : ∃ Q, HasCoords Q k.publicKey.x k.publicKey.y := by
  induction h with
  | publicKey k _ => exact ⟨_, publicKey_coords k⟩
  | deriveChild k i c _ h ih => exact deriveChild_coords H ih h
  | deriveFromPath k path c _ h ih =>
    obtain ⟨l⟩ := path
    unfold XPub.deriveFromPath at h
    simp only [DerivationPath.iter] at h
    induction l generalizing k with
    | nil => cases h; exact ih
    | cons i l ihl =>
      rw [List.foldl_cons, foldl_bind (fun (b : XPub) a => b.deriveChild H a)] at h
      simp only [Res.ok_bind, Res.bind_eq_ok] at h
      obtain ⟨k1, h1, h2⟩ := h
      exact ihl k1 (ReachPub.deriveChild k i k1 ‹_› h1) (deriveChild_coords H ih h1) h2
  | tryFrom e k h => exact tryFrom_coords h
  | fromStr s k h =>
    unfold XPub.fromStr at h
    rw [Res.bind_eq_ok] at h
    obtain ⟨e, _, h⟩ := h
    exact tryFrom_coords h

/-- C37. After any history of calls, the 32 bytes of a private key are a number from 1 to n - 1, its public key is that
multiple of the generator, which is a point of the curve other than infinity, and every extended public key is such a
multiple. -/
theorem C37_keys_in_range (H : Hashes) :
    (∀ k, ReachPrv H k → 1 ≤ parse256 k.toBytes.1 ∧ parse256 k.toBytes.1 ≤ n - 1 ∧
      HasCoords (parse256 k.toBytes.1 • G) k.publicKey.publicKey.x k.publicKey.publicKey.y ∧
      parse256 k.toBytes.1 • G ≠ 0) ∧
    (∀ k, ReachPub H k → ∃ d, 1 ≤ d ∧ d ≤ n - 1 ∧ HasCoords (d • G) k.publicKey.x k.publicKey.y ∧ d • G ≠ 0) := by
  constructor
  · intro k _
    have hp : parse256 k.toBytes.1 = k.privateKey.k := by
      unfold parse256
      rw [bytesVal_eq]
      show beNat (natBE 32 k.privateKey.k) = _
      rw [beNat_natBE]
      exact Nat.mod_eq_of_lt (Nat.lt_of_lt_of_le k.privateKey.lt (by decide))
    have h1 := k.privateKey.pos
    have h2 := k.privateKey.lt
    rw [Secp.n_eq] at h2
    rw [hp]
    exact ⟨h1, by omega, publicKey_coords k, k.privateKey.smul_ne_zero⟩
  · intro k hk
    obtain ⟨Q, hQ⟩ := reach_pub H hk
    obtain ⟨s, hs⟩ := Secp.exists_secret (Secp.valid_of_rep (Secp.rep_coords.2 hQ))
    have h1 := s.pos
    have h2 := s.lt
    rw [Secp.n_eq] at h2
    refine ⟨s.k, h1, by omega, ?_, s.smul_ne_zero⟩
    have := Secp.rep_coords.1 (Secp.fromSecretKey_rep s)
    rwa [hs] at this

-- a derived private key and a derived public key
example : (∃ k, ReachPrv (constHash 2) k ∧ parse256 k.toBytes.1 = 4) ∧
    ∃ k, ReachPub (constHash 2) k ∧ k.attrs.depth = 1 ∧ k.attrs.childNumber.n = 7 := by
  have h1 : ((XPrv.newFromPath (constHash 2) (List.replicate 16 0) ⟨[⟨1⟩]⟩).map (fun k => parse256 k.toBytes.1)) = .ok 4 := by
    decide +kernel
  have h2 : ((XPrv.new (constHash 2) (List.replicate 16 0) >>= fun k => k.publicKey.deriveChild (constHash 2) ⟨7⟩).map
      (fun k => (k.attrs.depth, k.attrs.childNumber.n))) = .ok (1, 7) := by
    decide +kernel
  have ex : ∀ {α β : Type} {f : α → β} {r : Res Error α} {b : β}, r.map f = .ok b → ∃ a, r = .ok a ∧ f a = b := by
    intro α β f r b h
    cases r with
    | ok a => exact ⟨a, rfl, Res.ok.inj h⟩
    | err e => cases h
    | panic => cases h
  constructor
  · obtain ⟨k, h, h'⟩ := ex h1
    exact ⟨k, .newFromPath _ _ _ h, h'⟩
  · obtain ⟨c, h, h'⟩ := ex h2
    obtain ⟨k, hk, hc⟩ := (Res.bind_eq_ok ..).1 h
    injection h' with ha hb
    exact ⟨c, .deriveChild _ _ _ (.publicKey _ (.new _ _ hk)) hc, ha, hb⟩

/-- C50. `to_bytes` of a public key that is the point `Q` is `serP(Q)`; `from_bytes` accepts it and returns the same key;
`from_bytes` accepts a 33-byte string exactly when it is the compressed form of some point, that is when the tag is 2
or 3, x < p and x^3 + 7 is a square modulo p; an accepted string is what `to_bytes` gives back; everything else is
`Crypto`. -/
theorem C50_compressed_keys :
    (∀ (P : Secp.PublicKey) Q, HasCoords Q P.x P.y → (PublicKey.toBytes P).1 = serP Q ∧
      PublicKey.fromBytes (PublicKey.toBytes P) = .ok P) ∧
    (∀ (b : ByteArr 33) P, PublicKey.fromBytes b = .ok P → PublicKey.toBytes P = b ∧ ∃ Q, HasCoords Q P.x P.y) ∧
    (∀ b : ByteArr 33, (∃ P, PublicKey.fromBytes b = .ok P) ↔
      ∃ (t : UInt8) (x : List UInt8), b.1 = t :: x ∧ (t = 2 ∨ t = 3) ∧ parse256 x < p ∧
        ∃ y : Nat, y ^ 2 % p = (parse256 x ^ 3 + 7) % p) ∧
    (∀ b : ByteArr 33, (∃ P, PublicKey.fromBytes b = .ok P) ∨ PublicKey.fromBytes b = .err .crypto) := by
  have hok : ∀ (b : ByteArr 33) P, PublicKey.fromBytes b = .ok P → P.Valid ∧ P.serializeCompressed = b := by
    intro b P h
    unfold PublicKey.fromBytes at h
    rcases Secp.PublicKey.parse_cases b with ⟨P', h1, h2, h3⟩ | h1
    · rw [h1] at h; cases h; exact ⟨h2, h3⟩
    · rw [h1] at h; cases h
  have hpt : ∀ (P : Secp.PublicKey), P.Valid → PublicKey.fromBytes (PublicKey.toBytes P) = .ok P := by
    intro P hP
    unfold PublicKey.fromBytes PublicKey.toBytes
    rw [Secp.PublicKey.parse_serialize hP]
    rfl
  refine ⟨?_, ?_, ?_, ?_⟩
  · intro P Q hQ
    have h := Secp.rep_coords.2 hQ
    exact ⟨Secp.serP_eq h, hpt P (Secp.valid_of_rep h)⟩
  · intro b P h
    obtain ⟨h1, h2⟩ := hok b P h
    exact ⟨h2, _, Secp.rep_coords.1 (P.point_rep h1)⟩
  · intro b
    constructor
    · rintro ⟨P, h⟩
      obtain ⟨h1, h2⟩ := hok b P h
      refine ⟨_, _, (congrArg Subtype.val h2).symm, ?_, ?_⟩
      · split <;> simp
      · have hx : parse256 (natBE 32 P.x) = P.x := by
          unfold parse256; rw [bytesVal_eq]; exact Secp.beNat_natBE32 h1.1
        rw [hx, ← Secp.p_eq]
        exact ⟨h1.1, P.y, h1.2.2⟩
    · rintro ⟨t, x, hb, ht, hx, y, hy⟩
      have hlx : x.length = 32 := by
        have := b.2
        rw [hb] at this
        simpa using this
      rw [← Secp.p_eq] at hx hy
      have hcurve : ((y : Nat) : Spec.Secp.F) ^ 2 = ((parse256 x : Nat) : Spec.Secp.F) ^ 3 + 7 := by
        rw [Secp.mod_eq_iff] at hy
        push_cast at hy
        exact hy
      -- the root with the wanted parity
      have hv : ∃ y' : Spec.Secp.F, y' ^ 2 = ((parse256 x : Nat) : Spec.Secp.F) ^ 3 + 7 ∧
          ((y'.val % 2 == 1) = (t == 3)) := by
        by_cases hp : (((y : Spec.Secp.F)).val % 2 == 1) = (t == 3)
        · exact ⟨y, hcurve, hp⟩
        · refine ⟨-y, by rw [neg_sq]; exact hcurve, ?_⟩
          rw [Secp.neg_parity (Secp.y_ne_zero hcurve)]
          revert hp
          cases ((y : Spec.Secp.F).val % 2 == 1) <;> cases (t == 3) <;> simp
      obtain ⟨y', hc', hpar⟩ := hv
      have hP : (⟨parse256 x, y'.val⟩ : Secp.PublicKey).Valid := by
        rw [Secp.PublicKey.valid_iff]
        refine ⟨hx, Secp.val_lt y', ?_⟩
        simp only [ZMod.natCast_zmod_val]
        exact hc'
      refine ⟨⟨parse256 x, y'.val⟩, ?_⟩
      have hbytes : PublicKey.toBytes ⟨parse256 x, y'.val⟩ = b := by
        apply Subtype.ext
        rw [hb]
        show (if y'.val % 2 = 1 then (3 : UInt8) else 2) :: natBE 32 (parse256 x) = _
        have hx2 : natBE 32 (parse256 x) = x := by
          unfold parse256
          rw [bytesVal_eq]
          have := natBE_beNat x
          rwa [hlx] at this
        rw [hx2]
        congr 1
        rcases ht with rfl | rfl
        · rw [if_neg]
          intro h; rw [h] at hpar; simp at hpar
        · rw [if_pos]
          simpa using hpar
      rw [← hbytes]
      exact hpt _ hP
  · intro b
    unfold PublicKey.fromBytes
    rcases Secp.PublicKey.parse_cases b with ⟨P', h1, _⟩ | h1
    · rw [h1]; exact .inl ⟨P', rfl⟩
    · rw [h1]; exact .inr rfl

-- the generator, and an x without a point
example : (PublicKey.fromBytes ⟨2 :: natBE 32 0x79BE667EF9DCBBAC55A06295CE870B07029BFCDB2DCE28D959F2815B16F81798, by simp⟩).map (·.y) =
      .ok 0x483ADA7726A3C4655DA4FBFC0E1108A8FD17B448A68554199C47D08FFB10D4B8 ∧
    PublicKey.fromBytes ⟨2 :: natBE 32 5, by simp⟩ = .err .crypto := by decide +kernel

/-- C52. What a derivation feeds to HMAC is the data BIP32 prescribes, and it is equal for two derivations only if the child numbers
(hence hardenedness) and the private keys are equal; it has 37 bytes and starts with 0 exactly for hardened children. -/
theorem C52_hmac_input_injective (k k' : XPrv) (i i' : ChildNumber) :
    (data k.privateKey.k i.n.toNat = data k'.privateKey.k i'.n.toNat → i = i' ∧ k.privateKey = k'.privateKey) ∧
    (data k.privateKey.k i.n.toNat).length = 37 ∧
    ((data k.privateKey.k i.n.toNat).head? = some 0 ↔ 2 ^ 31 ≤ i.n.toNat) ∧
    k.hmacInput i = data k.privateKey.k i.n.toNat := by
  rw [← XPrv.hmacInput_eq, ← XPrv.hmacInput_eq]
  have hlen : ∀ (k : XPrv) (i : ChildNumber), (if i.isHardened then [0] ++ (PrivateKey.toBytes k.privateKey).1
      else (PublicKey.toBytes (PrivateKey.publicKey k.privateKey)).1).length = 33 := by
    intro k i
    split
    · rw [List.length_append, (PrivateKey.toBytes k.privateKey).2]; rfl
    · exact (PublicKey.toBytes (PrivateKey.publicKey k.privateKey)).2
  have htag : ∀ (P : Secp.PublicKey), ∃ t r, (PublicKey.toBytes P).1 = t :: r ∧ t ≠ 0 := by
    intro P
    refine ⟨_, _, rfl, ?_⟩
    split <;> decide
  have hhead : ∀ (k : XPrv) (i : ChildNumber), (k.hmacInput i).head? = some 0 ↔ i.isHardened = true := by
    intro k i
    unfold XPrv.hmacInput
    cases hh : i.isHardened
    · obtain ⟨t, r, h1, h2⟩ := htag (PrivateKey.publicKey k.privateKey)
      simp [h1, h2]
    · simp
  refine ⟨?_, ?_, by rw [hhead, ChildNumber.isHardened_iff], rfl⟩
  · intro h
    have hh : i.isHardened = i'.isHardened := by
      rw [Bool.eq_iff_iff, ← hhead k i, ← hhead k' i', h]
    unfold XPrv.hmacInput at h
    obtain ⟨h1, h2⟩ := List.append_inj h (by rw [hlen, hlen])
    have hi : i = i' := by
      have e := u32ToBE_inj (Subtype.ext h2)
      cases i; cases i'
      exact congrArg ChildNumber.mk e
    refine ⟨hi, ?_⟩
    subst hi
    cases hb : i.isHardened
    · rw [hb] at h1
      have h3 := Secp.PublicKey.serialize_inj (Secp.fromSecretKey_valid _) (Secp.fromSecretKey_valid _)
        (Subtype.ext (show (PublicKey.toBytes (PrivateKey.publicKey k.privateKey)).1 = _ from h1))
      exact Secp.fromSecretKey_inj h3
    · rw [hb] at h1
      have h3 : [0] ++ (PrivateKey.toBytes k.privateKey).1 = [0] ++ (PrivateKey.toBytes k'.privateKey).1 := h1
      rw [List.append_cancel_left_eq] at h3
      exact SecretKey.serialize_inj (Subtype.ext h3)
  · unfold XPrv.hmacInput
    rw [List.length_append, hlen, i.toBytes.2]

-- the hardened and the normal child with the same low bits
example : exKey.hmacInput ⟨0⟩ ≠ exKey.hmacInput ⟨0x80000000⟩ ∧ (exKey.hmacInput ⟨0x80000000⟩).head? = some 0 := by
  decide +kernel

/-- C55. The public key has the attributes of the private key; its fingerprint is the first four bytes of
RIPEMD160(SHA256(serP(k G))); that is the parent fingerprint of every child, derived privately or publicly.  The conversions to
libsecp256k1's types keep the key: the number `k`, the point `k G`, and the bytes of any public key. -/
theorem C55_neutering (H : Hashes) (k : XPrv) :
    k.publicKey.attrs = k.attrs ∧
    k.publicKey.toBytes.1 = serP (k.privateKey.k • G) ∧
    (k.publicKey.fingerprint H).1 =
      ((H.ripemd160 (H.sha256 (serP (k.privateKey.k • G))).1).1).take 4 ∧
    (∀ i c, k.deriveChild H i = .ok c → c.attrs.parentFingerprint = k.publicKey.fingerprint H) ∧
    (∀ (K : XPub) i c, K.deriveChild H i = .ok c → c.attrs.parentFingerprint = K.fingerprint H) ∧
    k.toSecretKey.serialize.1 = ser256 k.privateKey.k ∧ k.toBytes.1 = ser256 k.privateKey.k ∧
    HasCoords (k.privateKey.k • G) k.publicKey.toPublicKey.x k.publicKey.toPublicKey.y ∧
    (∀ K : XPub, K.toPublicKey.serializeCompressed = K.toBytes ∧ K.toPublicKey.x = K.publicKey.x ∧
      K.toPublicKey.y = K.publicKey.y) := by
  refine ⟨rfl, publicKey_bytes k.privateKey, fingerprint_eq H (Secp.fromSecretKey_rep k.privateKey), ?_, ?_,
    (ser256_eq _).symm, (ser256_eq _).symm, Secp.rep_coords.1 (Secp.fromSecretKey_rep k.privateKey), fun _ => ⟨rfl, rfl, rfl⟩⟩
  · intro i c h
    rw [XPrv.deriveChild_eq] at h
    simp only [Res.bind_eq_ok] at h
    obtain ⟨_, _, _, _, h⟩ := h
    cases h
    rfl
  · intro K i c h
    rw [XPub.deriveChild_eq] at h
    split at h
    · cases h
    · simp only [Res.bind_eq_ok] at h
      obtain ⟨_, _, _, _, h⟩ := h
      cases h
      rfl

-- the key 1: its conversion is the generator
example : exKey.toSecretKey.k = 1 ∧ exKey.publicKey.toPublicKey.x = Spec.Secp.gx ∧ exKey.publicKey.attrs.depth = 0 := by
  decide +kernel

/-- C58. Private keys and public keys are in one-to-one correspondence: two private keys with the same public key are
equal, and every 33-byte string accepted as a public key is the public key of some private key. -/
theorem C58_public_key_bijective :
    (∀ s t : SecretKey, PrivateKey.publicKey s = PrivateKey.publicKey t → s = t) ∧
    (∀ b P, PublicKey.fromBytes b = .ok P → ∃ s : SecretKey, PrivateKey.publicKey s = P) ∧
    (∀ s : SecretKey, PublicKey.fromBytes (PublicKey.toBytes (PrivateKey.publicKey s)) = .ok (PrivateKey.publicKey s)) ∧
    Nat.card Point = n := by
  refine ⟨fun s t => Secp.fromSecretKey_inj, ?_, ?_, Secp.card_point⟩
  · intro b P h
    obtain ⟨_, Q, hQ⟩ := C50_compressed_keys.2.1 b P h
    exact Secp.exists_secret (Secp.valid_of_rep (Secp.rep_coords.2 hQ))
  · intro s
    exact (C50_compressed_keys.1 _ _ (Secp.rep_coords.1 (Secp.fromSecretKey_rep s))).2

-- the point of the key 2, written compressed, is accepted and is the public key of 2
example : PublicKey.fromBytes ⟨2 :: natBE 32 0xC6047F9441ED7D6D3045406E95C07CD85C778E4B8CEF3CA7ABAC09B95C709EE5, by simp⟩ =
    .ok (PrivateKey.publicKey ⟨2, by decide, by decide⟩) := by
  decide +kernel

end Kms.Props
