import Verif.Proofs.Keys
/-
Properties C30 to C37, C52, C55, C57, C58: derivation of extended keys.
-/
namespace Kms.Props
open Kms.Bip32 Kms.Spec.Bip32
open Kms.Spec.Secp (Point G n HasCoords)
open Kms.Secp (SecretKey)

/-- A key used in the examples: private key 1, all attributes zero. -/
def exKey : XPrv := ⟨⟨1, by decide, by decide⟩, ⟨0, zeroArr 4, ⟨0⟩, zeroArr 32⟩⟩

/-- Hash functions used in the examples: the left half of every SHA-512 is the number `v`. -/
def constHash (v : Nat) : Hashes :=
  ⟨fun _ => zeroArr 32, fun _ => ⟨natBE 32 v ++ natBE 32 7, by simp⟩, fun _ => zeroArr 20⟩

theorem foldl_bind {α β : Type} (f : β → α → Res Error β) (l : List α) (r : Res Error β) :
    l.foldl (fun m a => m >>= fun b => f b a) r = r >>= fun b => l.foldl (fun m a => m >>= fun b => f b a) (.ok b) := by
  cases r with
  | ok b => rfl
  | err e => induction l with
    | nil => rfl
    | cons a l ih => exact ih
  | panic => induction l with
    | nil => rfl
    | cons a l ih => exact ih

/-- C30. Deriving along a path and then along another is deriving along the concatenation; deriving from the seed is
making the master key and deriving; the empty path changes nothing; one step is `derive_child`.  As full outcomes, for
private and public keys. -/
theorem C30_path_composition (H : Hashes) (p q : DerivationPath) :
    (∀ k : XPrv, (k.deriveFromPath H p >>= fun k' => k'.deriveFromPath H q) = k.deriveFromPath H (p.extend q.iter)) ∧
    (∀ k : XPub, (k.deriveFromPath H p >>= fun k' => k'.deriveFromPath H q) = k.deriveFromPath H (p.extend q.iter)) ∧
    (∀ seed, XPrv.newFromPath H seed p = XPrv.new H seed >>= fun k => k.deriveFromPath H p) ∧
    (∀ k : XPrv, k.deriveFromPath H .default = .ok k ∧
      ∀ i, k.deriveFromPath H (DerivationPath.default.push i) = k.deriveChild H i) ∧
    (∀ k : XPub, k.deriveFromPath H .default = .ok k ∧
      ∀ i, k.deriveFromPath H (DerivationPath.default.push i) = k.deriveChild H i) := by
  refine ⟨fun k => ?_, fun k => ?_, fun seed => ?_, fun k => ⟨rfl, fun i => rfl⟩, fun k => ⟨rfl, fun i => rfl⟩⟩
  · unfold XPrv.deriveFromPath
    simp only [DerivationPath.extend, DerivationPath.iter, List.foldl_append]
    rw [foldl_bind (fun (b : XPrv) a => b.deriveChild H a) q.path (p.path.foldl _ _)]
  · unfold XPub.deriveFromPath
    simp only [DerivationPath.extend, DerivationPath.iter, List.foldl_append]
    rw [foldl_bind (fun (b : XPub) a => b.deriveChild H a) q.path (p.path.foldl _ _)]
  · unfold XPrv.newFromPath XPrv.deriveFromPath
    exact foldl_bind (fun (b : XPrv) a => b.deriveChild H a) p.path _

-- a normal and a hardened step, in the key only: 1 + 2 + 2
example : ((exKey.deriveFromPath (constHash 2) ⟨[⟨1⟩, ⟨0x80000002⟩]⟩).map (·.privateKey.k)) = .ok 5 := by decide +kernel

/-- C31, one step. -/
theorem public_derive_child (H : Hashes) (k : XPrv) (i : ChildNumber) (hi : i.n.toNat < 2 ^ 31) :
    (k.deriveChild H i).map XPrv.publicKey = k.publicKey.deriveChild H i := by
  have hh : i.isHardened = false := by
    rw [Bool.eq_false_iff, Ne, ChildNumber.isHardened_iff]; omega
  rw [XPrv.deriveChild_eq, XPub.deriveChild_eq, hh]
  have hin : k.hmacInput i = (PublicKey.toBytes k.publicKey.publicKey).1 ++ i.toBytes.1 := by
    unfold XPrv.hmacInput
    rw [hh]
    rfl
  rw [hin]
  simp only [XPrv.publicKey, deriveChild_public]
  cases Res.ofOption Error.depth (checkedSucc k.attrs.depth) with
  | err e => rfl
  | panic => rfl
  | ok d =>
    simp only [Res.ok_bind]
    generalize PrivateKey.deriveChild k.privateKey _ = r
    cases r <;> rfl

/-- C31. Deriving a non-hardened child, or along a path of non-hardened numbers, and then taking the public key is the
same as taking the public key and deriving: the same key, error or panic. -/
theorem C31_public_matches_private (H : Hashes) (k : XPrv) :
    (∀ i, i.n.toNat < 2 ^ 31 → (k.deriveChild H i).map XPrv.publicKey = k.publicKey.deriveChild H i) ∧
    (∀ p : DerivationPath, (∀ i ∈ p.iter, i.n.toNat < 2 ^ 31) →
      (k.deriveFromPath H p).map XPrv.publicKey = k.publicKey.deriveFromPath H p) := by
  refine ⟨public_derive_child H k, ?_⟩
  rintro ⟨l⟩ h
  unfold XPrv.deriveFromPath XPub.deriveFromPath
  simp only [DerivationPath.iter] at h ⊢
  induction l generalizing k with
  | nil => rfl
  | cons i l ih =>
    rw [List.foldl_cons, List.foldl_cons, foldl_bind (fun (b : XPrv) a => b.deriveChild H a),
      foldl_bind (fun (b : XPub) a => b.deriveChild H a)]
    simp only [Res.ok_bind]
    rw [← public_derive_child H k i (h i (by simp))]
    cases k.deriveChild H i with
    | err e => rfl
    | panic => rfl
    | ok k' =>
      simp only [Res.ok_bind, Res.map_ok]
      exact ih k' (fun j hj => h j (by simp [hj]))

/-- The two sides of C31 are a key, not an error, for the example key. -/
example : ∃ c, exKey.publicKey.deriveChild (constHash 2) ⟨5⟩ = .ok c ∧ c.attrs.depth = 1 := by
  rw [← (C31_public_matches_private (constHash 2) exKey).1 ⟨5⟩ (by decide)]
  rw [XPrv.deriveChild_eq]
  have h := PrivateKey.deriveChild_cases exKey.privateKey
    (left ((constHash 2).hmacSha512 exKey.attrs.chainCode.1 (exKey.hmacInput ⟨5⟩)))
  have hb : beNat (left ((constHash 2).hmacSha512 exKey.attrs.chainCode.1 (exKey.hmacInput ⟨5⟩))).1 = 2 := by
    show beNat ((natBE 32 2 ++ natBE 32 7).take 32) = 2
    decide +kernel
  rw [hb] at h
  rcases h with ⟨h, _⟩ | ⟨_, h, _⟩ | ⟨_, _, u, hu, _⟩
  · exact absurd h (by decide)
  · exact absurd h (by decide)
  · rw [hu]
    exact ⟨_, rfl, rfl⟩

/-- C32. An extended public key has no hardened child, whatever its depth; a path with a hardened number is an error
or (see C35) a panic, never a key; if all numbers before the hardened one derive, the error is `ChildNumber`. -/
theorem C32_no_hardened_public (H : Hashes) (k : XPub) :
    (∀ i, 2 ^ 31 ≤ i.n.toNat → k.deriveChild H i = .err .childNumber) ∧
    (∀ p : DerivationPath, (∃ i ∈ p.iter, 2 ^ 31 ≤ i.n.toNat) → ∀ k', k.deriveFromPath H p ≠ .ok k') ∧
    (∀ (p : DerivationPath) k' i rest, k.deriveFromPath H p = .ok k' → 2 ^ 31 ≤ i.n.toNat →
      k.deriveFromPath H (p.extend (i :: rest)) = .err .childNumber) := by
  have one : ∀ (k : XPub) i, 2 ^ 31 ≤ i.n.toNat → k.deriveChild H i = .err .childNumber := by
    intro k i hi
    rw [XPub.deriveChild_eq, if_pos ((ChildNumber.isHardened_iff i).2 hi)]
  have three : ∀ (p : DerivationPath) k' i rest, k.deriveFromPath H p = .ok k' → 2 ^ 31 ≤ i.n.toNat →
      k.deriveFromPath H (p.extend (i :: rest)) = .err .childNumber := by
    intro p k' i rest hp hi
    have := (C30_path_composition H p ⟨i :: rest⟩).2.1 k
    rw [hp] at this
    rw [show p.extend (i :: rest) = p.extend (DerivationPath.iter ⟨i :: rest⟩) from rfl, ← this]
    simp only [Res.ok_bind]
    unfold XPub.deriveFromPath
    simp only [DerivationPath.iter, List.foldl_cons, Res.ok_bind, one k' i hi]
    exact foldl_bind (fun (b : XPub) a => b.deriveChild H a) rest (.err .childNumber)
  refine ⟨one k, ?_, three⟩
  rintro ⟨l⟩ ⟨i, hi, hh⟩ k' hk
  obtain ⟨a, b, hl⟩ := List.append_of_mem hi
  simp only [DerivationPath.iter] at hl
  subst hl
  have hc := (C30_path_composition H ⟨a⟩ ⟨i :: b⟩).2.1 k
  rw [show DerivationPath.extend ⟨a⟩ (DerivationPath.iter ⟨i :: b⟩) = ⟨a ++ i :: b⟩ from rfl, hk] at hc
  rw [Res.bind_eq_ok] at hc
  obtain ⟨k1, h1, _⟩ := hc
  have h2 := three ⟨a⟩ k1 i b h1 hh
  rw [show DerivationPath.extend ⟨a⟩ (i :: b) = ⟨a ++ i :: b⟩ from rfl, hk] at h2
  cases h2

-- account keys are hardened
example : exKey.publicKey.deriveChild (constHash 2) ⟨0x8000002C⟩ = .err .childNumber :=
  (C32_no_hardened_public _ _).1 _ (by decide)

/-- Success of one private step: the depth. -/
theorem xprv_depth (H : Hashes) {k c : XPrv} {i : ChildNumber} (h : k.deriveChild H i = .ok c) :
    c.attrs.depth.toNat = k.attrs.depth.toNat + 1 := by
  rw [XPrv.deriveChild_eq] at h
  rcases checkedSucc_cases k.attrs.depth with ⟨_, h1, h2⟩ | ⟨_, h1⟩
  · rw [h1] at h
    simp only [Res.ofOption_some, Res.ok_bind, Res.bind_eq_ok] at h
    obtain ⟨u, _, h⟩ := h
    cases h
    exact h2
  · rw [h1] at h; cases h

theorem xpub_depth (H : Hashes) {k c : XPub} {i : ChildNumber} (h : k.deriveChild H i = .ok c) :
    c.attrs.depth.toNat = k.attrs.depth.toNat + 1 := by
  rw [XPub.deriveChild_eq] at h
  split at h
  · cases h
  rcases checkedSucc_cases k.attrs.depth with ⟨_, h1, h2⟩ | ⟨_, h1⟩
  · rw [h1] at h
    simp only [Res.ofOption_some, Res.ok_bind, Res.bind_eq_ok] at h
    obtain ⟨u, _, h⟩ := h
    cases h
    exact h2
  · rw [h1] at h; cases h

theorem err_crypto_prv {k : SecretKey} {o : ByteArr 32} {e : Error} (h : PrivateKey.deriveChild k o = .err e) : e = .crypto := by
  unfold PrivateKey.deriveChild unwrap cryptoErr at h
  cases h1 : SecretKey.parse o <;> rw [h1] at h <;> simp at h
  cases h2 : k.tweakAdd ‹_› <;> rw [h2] at h <;> simp_all

theorem err_crypto_pub {k : Secp.PublicKey} {o : ByteArr 32} {e : Error} (h : PublicKey.deriveChild k o = .err e) :
    e = .crypto := by
  unfold PublicKey.deriveChild unwrap cryptoErr at h
  cases h1 : SecretKey.parse o <;> rw [h1] at h <;> simp at h
  cases h2 : k.tweakAdd ‹_› <;> rw [h2] at h <;> simp_all

/-- C33. Every successful step adds one to the depth; the outcome is `Depth` at depth 255 and only there (for public keys, unless
the number is hardened); a successful path adds its length, so a path longer than 255 minus the depth never succeeds. -/
theorem C33_depth (H : Hashes) :
    (∀ (k c : XPrv) i, k.deriveChild H i = .ok c → c.attrs.depth.toNat = k.attrs.depth.toNat + 1) ∧
    (∀ (k c : XPub) i, k.deriveChild H i = .ok c → c.attrs.depth.toNat = k.attrs.depth.toNat + 1) ∧
    (∀ (k : XPrv) i, k.deriveChild H i = .err .depth ↔ k.attrs.depth.toNat = 255) ∧
    (∀ (k : XPub) i, k.deriveChild H i = .err .depth ↔ k.attrs.depth.toNat = 255 ∧ i.n.toNat < 2 ^ 31) ∧
    (∀ (k c : XPrv) p, k.deriveFromPath H p = .ok c →
      c.attrs.depth.toNat = k.attrs.depth.toNat + p.len ∧ p.len ≤ 255 - k.attrs.depth.toNat) ∧
    (∀ (k c : XPub) p, k.deriveFromPath H p = .ok c →
      c.attrs.depth.toNat = k.attrs.depth.toNat + p.len ∧ p.len ≤ 255 - k.attrs.depth.toNat) ∧
    (∀ (seed : Bytes) c p, XPrv.newFromPath H seed p = .ok c → c.attrs.depth.toNat = p.len ∧ p.len ≤ 255) := by
  have hprv : ∀ (k c : XPrv) p, k.deriveFromPath H p = .ok c →
      c.attrs.depth.toNat = k.attrs.depth.toNat + p.len := by
    rintro k c ⟨l⟩ h
    unfold XPrv.deriveFromPath at h
    simp only [DerivationPath.iter, DerivationPath.len] at h ⊢
    induction l generalizing k with
    | nil => cases h; rfl
    | cons i l ih =>
      rw [List.foldl_cons, foldl_bind (fun (b : XPrv) a => b.deriveChild H a)] at h
      simp only [Res.ok_bind, Res.bind_eq_ok] at h
      obtain ⟨k1, h1, h2⟩ := h
      rw [ih k1 h2, xprv_depth H h1, List.length_cons]
      omega
  have hpub : ∀ (k c : XPub) p, k.deriveFromPath H p = .ok c →
      c.attrs.depth.toNat = k.attrs.depth.toNat + p.len := by
    rintro k c ⟨l⟩ h
    unfold XPub.deriveFromPath at h
    simp only [DerivationPath.iter, DerivationPath.len] at h ⊢
    induction l generalizing k with
    | nil => cases h; rfl
    | cons i l ih =>
      rw [List.foldl_cons, foldl_bind (fun (b : XPub) a => b.deriveChild H a)] at h
      simp only [Res.ok_bind, Res.bind_eq_ok] at h
      obtain ⟨k1, h1, h2⟩ := h
      rw [ih k1 h2, xpub_depth H h1, List.length_cons]
      omega
  refine ⟨fun k c i => xprv_depth H, fun k c i => xpub_depth H, ?_, ?_, ?_, ?_, ?_⟩
  · intro k i
    rw [XPrv.deriveChild_eq]
    rcases checkedSucc_cases k.attrs.depth with ⟨h0, h1, h2⟩ | ⟨h0, h1⟩ <;> rw [h1]
    · refine ⟨fun h => ?_, fun h => by omega⟩
      simp only [Res.ofOption_some, Res.ok_bind] at h
      cases hd : PrivateKey.deriveChild k.privateKey (left (H.hmacSha512 k.attrs.chainCode.1 (k.hmacInput i))) with
      | ok u => rw [hd] at h; cases h
      | err e =>
        rw [hd] at h
        cases err_crypto_prv hd
        cases h
      | panic => rw [hd] at h; cases h
    · exact ⟨fun _ => h0, fun _ => rfl⟩
  · intro k i
    have hh := ChildNumber.isHardened_iff i
    rw [XPub.deriveChild_eq]
    split
    · refine ⟨nofun, fun h => ?_⟩
      have := hh.1 ‹_›
      omega
    rcases checkedSucc_cases k.attrs.depth with ⟨h0, h1, h2⟩ | ⟨h0, h1⟩ <;> rw [h1]
    · refine ⟨fun h => ?_, fun h => by omega⟩
      simp only [Res.ofOption_some, Res.ok_bind] at h
      cases hd : PublicKey.deriveChild k.publicKey
          (left (H.hmacSha512 k.attrs.chainCode.1 ((PublicKey.toBytes k.publicKey).1 ++ i.toBytes.1))) with
      | ok u => rw [hd] at h; cases h
      | err e =>
        rw [hd] at h
        cases err_crypto_pub hd
        cases h
      | panic => rw [hd] at h; cases h
    · refine ⟨fun _ => ⟨h0, ?_⟩, fun _ => rfl⟩
      by_contra hc
      exact ‹¬ i.isHardened = true› (hh.2 (by omega))
  · intro k c p h
    have := hprv k c p h
    have := c.attrs.depth.toNat_lt
    omega
  · intro k c p h
    have := hpub k c p h
    have := c.attrs.depth.toNat_lt
    omega
  · intro seed c p h
    rw [(C30_path_composition H p p).2.2.1, Res.bind_eq_ok] at h
    obtain ⟨k, hk, h⟩ := h
    have h0 : k.attrs.depth = 0 := by
      unfold XPrv.new at hk
      split at hk
      · cases hk
      · simp only [tryInto_left, tryInto_right, Res.ok_bind, Res.bind_eq_ok] at hk
        obtain ⟨u, _, hk⟩ := hk
        cases hk
        rfl
    have := hprv k c p h
    have := c.attrs.depth.toNat_lt
    rw [h0] at *
    simp only [UInt8.toNat_zero] at *
    omega

-- a key at the last depth
example : (XPrv.mk exKey.privateKey { exKey.attrs with depth := 255 }).deriveChild (constHash 2) ⟨0⟩ = .err .depth :=
  ((C33_depth _).2.2.1 _ _).2 rfl

/-- The outcome of a private derivation step, for every key and number. -/
theorem xprv_outcome (H : Hashes) (k : XPrv) (i : ChildNumber) :
    (k.attrs.depth.toNat = 255 ∧ k.deriveChild H i = .err .depth) ∨
    (k.attrs.depth.toNat < 255 ∧
      (IL (I (specHash H) k.attrs.chainCode.1 k.privateKey.k i.n.toNat) = 0 ∨
        n ≤ IL (I (specHash H) k.attrs.chainCode.1 k.privateKey.k i.n.toNat)) ∧ k.deriveChild H i = .panic) ∨
    (k.attrs.depth.toNat < 255 ∧ (0 < IL (I (specHash H) k.attrs.chainCode.1 k.privateKey.k i.n.toNat) ∧
        IL (I (specHash H) k.attrs.chainCode.1 k.privateKey.k i.n.toNat) < n) ∧
      (IL (I (specHash H) k.attrs.chainCode.1 k.privateKey.k i.n.toNat) + k.privateKey.k) % n = 0 ∧
      k.deriveChild H i = .err .crypto) ∨
    (k.attrs.depth.toNat < 255 ∧ (0 < IL (I (specHash H) k.attrs.chainCode.1 k.privateKey.k i.n.toNat) ∧
        IL (I (specHash H) k.attrs.chainCode.1 k.privateKey.k i.n.toNat) < n) ∧
      (IL (I (specHash H) k.attrs.chainCode.1 k.privateKey.k i.n.toNat) + k.privateKey.k) % n ≠ 0 ∧
      ∃ c, k.deriveChild H i = .ok c ∧
        c.privateKey.k = (IL (I (specHash H) k.attrs.chainCode.1 k.privateKey.k i.n.toNat) + k.privateKey.k) % n ∧
        c.attrs.chainCode.1 = IR (I (specHash H) k.attrs.chainCode.1 k.privateKey.k i.n.toNat) ∧
        c.attrs.depth.toNat = k.attrs.depth.toNat + 1 ∧ c.attrs.childNumber = i ∧
        c.attrs.parentFingerprint.1 = fingerprint (specHash H) (k.privateKey.k • G)) := by
  rcases checkedSucc_cases k.attrs.depth with ⟨hd, h1, h2⟩ | ⟨hd, h1⟩
  · right
    have hI := XPrv.hmac_eq H k i
    have hL : beNat (left (H.hmacSha512 k.attrs.chainCode.1 (k.hmacInput i))).1 =
        IL (I (specHash H) k.attrs.chainCode.1 k.privateKey.k i.n.toNat) := by
      unfold IL parse256
      rw [bytesVal_eq, ← hI]
      rfl
    have hR : (right (H.hmacSha512 k.attrs.chainCode.1 (k.hmacInput i))).1 =
        IR (I (specHash H) k.attrs.chainCode.1 k.privateKey.k i.n.toNat) := by
      unfold IR
      rw [← hI]
      rfl
    rw [XPrv.deriveChild_eq, h1]
    simp only [Res.ofOption_some, Res.ok_bind]
    have hc := PrivateKey.deriveChild_cases k.privateKey (left (H.hmacSha512 k.attrs.chainCode.1 (k.hmacInput i)))
    rw [hL, Secp.n_eq] at hc
    rcases hc with ⟨ha, hb⟩ | ⟨ha, hb, hc⟩ | ⟨ha, hb, u, hc, hu⟩
    · exact .inl ⟨hd, ha, by rw [hb]; rfl⟩
    · exact .inr (.inl ⟨hd, ha, hb, by rw [hc]; rfl⟩)
    · refine .inr (.inr ⟨hd, ha, hb, ?_⟩)
      rw [hc]
      exact ⟨_, rfl, hu, hR, h2, rfl, fingerprint_eq H (Secp.fromSecretKey_rep k.privateKey)⟩
  · left
    refine ⟨hd, ?_⟩
    rw [XPrv.deriveChild_eq, h1]
    rfl

/-- An extended private key is determined by these observations. -/
theorem xprv_ext {a b : XPrv} (h1 : a.privateKey.k = b.privateKey.k) (h2 : a.attrs.chainCode.1 = b.attrs.chainCode.1)
    (h3 : a.attrs.depth.toNat = b.attrs.depth.toNat) (h4 : a.attrs.childNumber = b.attrs.childNumber)
    (h5 : a.attrs.parentFingerprint.1 = b.attrs.parentFingerprint.1) : a = b := by
  obtain ⟨⟨ak, _, _⟩, ⟨ad, af, ac, acc⟩⟩ := a
  obtain ⟨⟨bk, _, _⟩, ⟨bd, bf, bc, bcc⟩⟩ := b
  simp only at h1 h2 h3 h4 h5
  have e2 := Subtype.ext h2
  have e5 := Subtype.ext h5
  have e3 := UInt8.toNat_inj.1 h3
  subst h1 e2 e3 h4 e5
  rfl

/-- C34. `derive_child` returns the key `c` exactly when the depth is below 255, `I_L` is in [1, n-1] and
`I_L + k` is not 0 modulo n, and then `c` is BIP32's child: key `(I_L + k) mod n`, chain code `I_R`, depth one more,
the requested number, the fingerprint of the parent's public key. -/
theorem C34_child_key (H : Hashes) (k c : XPrv) (i : ChildNumber) :
    let I := I (specHash H) k.attrs.chainCode.1 k.privateKey.k i.n.toNat
    k.deriveChild H i = .ok c ↔
      k.attrs.depth.toNat < 255 ∧ 0 < IL I ∧ IL I < n ∧ (IL I + k.privateKey.k) % n ≠ 0 ∧
      c.privateKey.k = (IL I + k.privateKey.k) % n ∧ c.attrs.chainCode.1 = IR I ∧
      c.attrs.depth.toNat = k.attrs.depth.toNat + 1 ∧ c.attrs.childNumber = i ∧
      c.attrs.parentFingerprint.1 = fingerprint (specHash H) (k.privateKey.k • G) := by
  intro J
  constructor
  · intro h
    rcases xprv_outcome H k i with ⟨_, h'⟩ | ⟨_, _, h'⟩ | ⟨_, _, _, h'⟩ | ⟨hd, ha, hb, c', h', hf⟩
    · rw [h'] at h; cases h
    · rw [h'] at h; cases h
    · rw [h'] at h; cases h
    · rw [h'] at h; cases h
      exact ⟨hd, ha.1, ha.2, hb, hf⟩
  · rintro ⟨hd, ha1, ha2, hb, hf⟩
    rcases xprv_outcome H k i with ⟨h1, _⟩ | ⟨_, h1, _⟩ | ⟨_, _, h1, _⟩ | ⟨_, _, _, c', h', hf'⟩
    · omega
    · exfalso
      change (IL J = 0 ∨ n ≤ IL J) at h1
      omega
    · exact absurd h1 hb
    · rw [h']
      congr 1
      exact xprv_ext (hf'.1.trans hf.1.symm) (hf'.2.1.trans hf.2.1.symm) (hf'.2.2.1.trans hf.2.2.1.symm)
        (hf'.2.2.2.1.trans hf.2.2.2.1.symm) (hf'.2.2.2.2.trans hf.2.2.2.2.symm)

-- a child exists
example : ((exKey.deriveChild (constHash 2) ⟨1⟩).map (fun c => (c.privateKey.k, c.attrs.depth, c.attrs.childNumber.n))) =
    .ok (3, 1, 1) := by
  decide +kernel

end Kms.Props
