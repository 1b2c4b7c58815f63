import Verif.Model.GenericKeys
import Verif.Props.KeyText
/-
Properties C88 to C90: extended keys over any implementation of the traits `PrivateKey` and `PublicKey`.
-/
namespace Kms.Props
open Kms.Bip32 Kms.Spec Kms.Spec.Bip32

/-- The four secret sizes `new` accepts. -/
def seedSizes : List Nat := [16, 32, 64, 128]

/-- The bytes hashed for the child `i` of a private key with these encodings. -/
def childData (priv pub : Bytes) (i : Nat) : Bytes := if 2 ^ 31 ≤ i then 0 :: priv ++ ser32 i else pub ++ ser32 i

/-- The key of an extended key comes from `r`: success with that key, the same error, or the same panic. -/
def Follows {α β : Type} (key : β → α) (outcome : Res Error β) (r : Res Error α) : Prop :=
  outcome.map key = r

/-- libsecp256k1's keys as the generic type. -/
def toG {H : Hashes} (k : XPrv) : GPrv (secpImpl H) := ⟨k.privateKey, k.attrs⟩
def toGPub {H : Hashes} (k : XPub) : GPub (secpImpl H) := ⟨k.publicKey, k.attrs⟩

theorem gprv_new_eq (K : KeyImpl) (H : Hashes) (seed : Bytes) (h : seed.length ∈ seedSizes) :
    GPrv.new K H seed = (K.fromBytes (left (H.hmacSha512 BIP39_DOMAIN_SEPARATOR seed)) >>= fun sk =>
      .ok ⟨sk, ⟨0, zeroArr 4, ChildNumber.default, right (H.hmacSha512 BIP39_DOMAIN_SEPARATOR seed)⟩⟩) := by
  have : ([16, 32, 64, 128] : List Nat).contains seed.length = true := by simpa [seedSizes] using h
  unfold GPrv.new
  rw [if_neg (by rw [this]; decide)]
  simp only [tryInto_left, tryInto_right, Res.ok_bind]

theorem gprv_deriveChild_eq {K : KeyImpl} (H : Hashes) (k : GPrv K) (i : ChildNumber) :
    k.deriveChild H i = (do
      let depth ← Res.ofOption Error.depth (checkedSucc k.attrs.depth)
      let privateKey ← K.deriveChild k.privateKey (left (H.hmacSha512 k.attrs.chainCode.1 (k.hmacInput i)))
      .ok ⟨privateKey, ⟨depth, K.fingerprint (K.publicKey k.privateKey), i,
        right (H.hmacSha512 k.attrs.chainCode.1 (k.hmacInput i))⟩⟩) := by
  unfold GPrv.deriveChild
  simp only [tryInto_left, tryInto_right, Res.ok_bind]

theorem gpub_deriveChild_eq {K : KeyImpl} (H : Hashes) (k : GPub K) (i : ChildNumber) :
    k.deriveChild H i = if i.isHardened then .err .childNumber else (do
      let depth ← Res.ofOption Error.depth (checkedSucc k.attrs.depth)
      let publicKey ← K.pubDeriveChild k.publicKey
        (left (H.hmacSha512 k.attrs.chainCode.1 ((K.pubToBytes k.publicKey).1 ++ i.toBytes.1)))
      .ok ⟨publicKey, ⟨depth, K.fingerprint k.publicKey, i,
        right (H.hmacSha512 k.attrs.chainCode.1 ((K.pubToBytes k.publicKey).1 ++ i.toBytes.1))⟩⟩) := by
  unfold GPub.deriveChild
  simp only [tryInto_left, tryInto_right, Res.ok_bind]

theorem gprv_hmacInput_eq {K : KeyImpl} (k : GPrv K) (i : ChildNumber) :
    k.hmacInput i = childData (K.toBytes k.privateKey).1 (K.pubToBytes (K.publicKey k.privateKey)).1 i.n.toNat := by
  unfold GPrv.hmacInput childData
  by_cases h : i.isHardened = true
  · rw [if_pos h, if_pos ((ChildNumber.isHardened_iff i).1 h), ser32_eq]
    rfl
  · rw [if_neg h, if_neg (fun h' => h ((ChildNumber.isHardened_iff i).2 h')), ser32_eq]

theorem halves {H : Hashes} {key msg : Bytes} {L : ByteArr 32} (hL : L.1 = (hmac (specHash H).sha512 key msg).take 32) :
    left (H.hmacSha512 key msg) = L ∧ (right (H.hmacSha512 key msg)).1 = (hmac (specHash H).sha512 key msg).drop 32 := by
  have := hmacSha512_spec H key msg
  constructor
  · apply Subtype.ext
    rw [hL]
    show (H.hmacSha512 key msg).1.take 32 = _
    rw [this]
    rfl
  · show (H.hmacSha512 key msg).1.drop 32 = _
    rw [this]
    rfl

/-- C88. What `new` and `derive_child` do with any key type.  The implementation's own functions decide about the key,
and its error or panic is passed on unchanged; they are given the left half of the HMAC.  Seed length, depth and hardened
public children are decided before that, without asking the implementation.  The attributes of a new key are those of
BIP32, with the implementation's fingerprint.  Equality and `Debug` depend on the attributes only.  Paths apply
`derive_child` from left to right. -/
theorem C88_any_key_type (K : KeyImpl) (H : Hashes) :
    (∀ seed, seed.length ∉ [16, 32, 64, 128] → GPrv.new K H seed = .err .seedLength) ∧
    (∀ seed, seed.length ∈ [16, 32, 64, 128] → ∀ L : ByteArr 32, L.1 = (master (specHash H) seed).take 32 →
      Follows GPrv.privateKey (GPrv.new K H seed) (K.fromBytes L) ∧
      ∀ k, GPrv.new K H seed = .ok k → k.attrs.depth = 0 ∧ k.attrs.parentFingerprint.1 = [0, 0, 0, 0] ∧
        k.attrs.childNumber.n = 0 ∧ k.attrs.chainCode.1 = (master (specHash H) seed).drop 32) ∧
    (∀ (k : GPrv K) i, k.attrs.depth.toNat = 255 → k.deriveChild H i = .err .depth) ∧
    (∀ (k : GPrv K) i, k.attrs.depth.toNat < 255 → ∀ I, I = hmac (specHash H).sha512 k.attrs.chainCode.1
        (childData (K.toBytes k.privateKey).1 (K.pubToBytes (K.publicKey k.privateKey)).1 i.n.toNat) →
      ∀ L : ByteArr 32, L.1 = I.take 32 →
      Follows GPrv.privateKey (k.deriveChild H i) (K.deriveChild k.privateKey L) ∧
      ∀ c, k.deriveChild H i = .ok c → c.attrs.depth.toNat = k.attrs.depth.toNat + 1 ∧
        c.attrs.parentFingerprint = K.fingerprint (K.publicKey k.privateKey) ∧ c.attrs.childNumber = i ∧
        c.attrs.chainCode.1 = I.drop 32) ∧
    (∀ (k : GPub K) i, 2 ^ 31 ≤ i.n.toNat → k.deriveChild H i = .err .childNumber) ∧
    (∀ (k : GPub K) i, i.n.toNat < 2 ^ 31 → k.attrs.depth.toNat = 255 → k.deriveChild H i = .err .depth) ∧
    (∀ (k : GPub K) i, i.n.toNat < 2 ^ 31 → k.attrs.depth.toNat < 255 → ∀ I, I = hmac (specHash H).sha512 k.attrs.chainCode.1
        ((K.pubToBytes k.publicKey).1 ++ ser32 i.n.toNat) →
      ∀ L : ByteArr 32, L.1 = I.take 32 →
      Follows GPub.publicKey (k.deriveChild H i) (K.pubDeriveChild k.publicKey L) ∧
      ∀ c, k.deriveChild H i = .ok c → c.attrs.depth.toNat = k.attrs.depth.toNat + 1 ∧
        c.attrs.parentFingerprint = K.fingerprint k.publicKey ∧ c.attrs.childNumber = i ∧
        c.attrs.chainCode.1 = I.drop 32) ∧
    (∀ a b : GPrv K, (a.eq b = true ↔ a.attrs = b.attrs) ∧
      (a.attrs = b.attrs → ∀ pretty, a.debug pretty = b.debug pretty)) ∧
    (∀ seed, GPrv.newFromPath K H seed .default = GPrv.new K H seed ∧
      ∀ (p : DerivationPath) i, GPrv.newFromPath K H seed (p.push i) =
        (GPrv.newFromPath K H seed p >>= fun k => k.deriveChild H i)) ∧
    (∀ k : GPrv K, k.deriveFromPath H .default = .ok k ∧
      ∀ (p : DerivationPath) i, k.deriveFromPath H (p.push i) = (k.deriveFromPath H p >>= fun k => k.deriveChild H i)) ∧
    (∀ k : GPub K, k.deriveFromPath H .default = .ok k ∧
      ∀ (p : DerivationPath) i, k.deriveFromPath H (p.push i) = (k.deriveFromPath H p >>= fun k => k.deriveChild H i)) := by
  refine ⟨?_, ?_, ?_, ?_, ?_, ?_, ?_, ?_, ?_, ?_, ?_⟩
  · intro seed h
    unfold GPrv.new
    have : ([16, 32, 64, 128] : List Nat).contains seed.length = false := by
      rw [Bool.eq_false_iff, Ne, List.contains_iff_mem]; exact h
    rw [if_pos (by rw [this]; rfl)]
  · intro seed h L hL
    have hm : master (specHash H) seed = hmac (specHash H).sha512 BIP39_DOMAIN_SEPARATOR seed := by
      unfold master
      congr 1
    rw [hm] at hL ⊢
    obtain ⟨h1, h2⟩ := halves hL
    rw [gprv_new_eq K H seed h, h1]
    unfold Follows
    cases K.fromBytes L with
    | ok sk =>
      refine ⟨rfl, fun k hk => ?_⟩
      cases hk
      exact ⟨rfl, rfl, rfl, h2⟩
    | err e => exact ⟨rfl, nofun⟩
    | panic => exact ⟨rfl, nofun⟩
  · intro k i h
    rcases checkedSucc_cases k.attrs.depth with ⟨h0, h1, h2⟩ | ⟨h0, h1⟩
    · omega
    · rw [gprv_deriveChild_eq, h1]; rfl
  · intro k i h I hI L hL
    subst hI
    rcases checkedSucc_cases k.attrs.depth with ⟨h0, h1, h2⟩ | ⟨h0, h1⟩
    · obtain ⟨e1, e2⟩ := halves hL
      rw [gprv_deriveChild_eq, h1, gprv_hmacInput_eq, e1]
      simp only [Res.ofOption_some, Res.ok_bind]
      unfold Follows
      cases K.deriveChild k.privateKey L with
      | ok sk =>
        refine ⟨rfl, fun c hc => ?_⟩
        cases hc
        exact ⟨h2, rfl, rfl, e2⟩
      | err e => exact ⟨rfl, nofun⟩
      | panic => exact ⟨rfl, nofun⟩
    · omega
  · intro k i h
    rw [gpub_deriveChild_eq, if_pos ((ChildNumber.isHardened_iff i).2 h)]
  · intro k i hi h
    rw [gpub_deriveChild_eq, if_neg (fun h' => by have := (ChildNumber.isHardened_iff i).1 h'; omega)]
    rcases checkedSucc_cases k.attrs.depth with ⟨h0, h1, h2⟩ | ⟨h0, h1⟩
    · omega
    · rw [h1]; rfl
  · intro k i hi h I hI L hL
    subst hI
    rcases checkedSucc_cases k.attrs.depth with ⟨h0, h1, h2⟩ | ⟨h0, h1⟩
    · obtain ⟨e1, e2⟩ := halves hL
      rw [gpub_deriveChild_eq, if_neg (fun h' => by have := (ChildNumber.isHardened_iff i).1 h'; omega), h1, ← ser32_eq, e1]
      simp only [Res.ofOption_some, Res.ok_bind]
      unfold Follows
      cases K.pubDeriveChild k.publicKey L with
      | ok sk =>
        refine ⟨rfl, fun c hc => ?_⟩
        cases hc
        exact ⟨h2, rfl, rfl, e2⟩
      | err e => exact ⟨rfl, nofun⟩
      | panic => exact ⟨rfl, nofun⟩
    · omega
  · intro a b
    refine ⟨?_, fun h pretty => ?_⟩
    · unfold GPrv.eq
      simp only [beq_self_eq_true, Bool.true_and, Bool.and_eq_true, beq_iff_eq]
      constructor
      · rintro ⟨⟨⟨h1, h2⟩, h3⟩, h4⟩
        obtain ⟨_, ⟨d, f, ⟨c⟩, cc⟩⟩ := a
        obtain ⟨_, ⟨d', f', ⟨c'⟩, cc'⟩⟩ := b
        simp only at h1 h2 h3 h4
        subst h1 h2 h3 h4
        rfl
      · intro h
        rw [h]
        exact ⟨⟨⟨rfl, rfl⟩, rfl⟩, rfl⟩
    · unfold GPrv.debug
      rw [h]
  · intro seed
    refine ⟨rfl, fun p i => ?_⟩
    simp only [GPrv.newFromPath, DerivationPath.iter, DerivationPath.push, List.foldl_append, List.foldl_cons, List.foldl_nil]
  · intro k
    refine ⟨rfl, fun p i => ?_⟩
    simp only [GPrv.deriveFromPath, DerivationPath.iter, DerivationPath.push, List.foldl_append, List.foldl_cons, List.foldl_nil]
  · intro k
    refine ⟨rfl, fun p i => ?_⟩
    simp only [GPub.deriveFromPath, DerivationPath.iter, DerivationPath.push, List.foldl_append, List.foldl_cons, List.foldl_nil]

/-- C88, the instance the crate provides: `XPrv` and `XPub` are the generic types at libsecp256k1's keys. -/
theorem C88_secp_instance (H : Hashes) :
    (∀ seed, (XPrv.new H seed).map toG = GPrv.new (secpImpl H) H seed) ∧
    (∀ seed p, (XPrv.newFromPath H seed p).map toG = GPrv.newFromPath (secpImpl H) H seed p) ∧
    (∀ k i, (XPrv.deriveChild H k i).map toG = GPrv.deriveChild H (toG (H := H) k) i) ∧
    (∀ k p, (XPrv.deriveFromPath H k p).map toG = GPrv.deriveFromPath H (toG (H := H) k) p) ∧
    (∀ k i, (XPub.deriveChild H k i).map toGPub = GPub.deriveChild H (toGPub (H := H) k) i) ∧
    (∀ k p, (XPub.deriveFromPath H k p).map toGPub = GPub.deriveFromPath H (toGPub (H := H) k) p) ∧
    (∀ k, toGPub (H := H) k.publicKey = (toG k).publicKey) ∧
    (∀ s, (XPrv.fromStr H s).map toG = GPrv.fromStr (secpImpl H) H s) ∧
    (∀ s, (XPub.fromStr H s).map toGPub = GPub.fromStr (secpImpl H) H s) ∧
    (∀ k p, XPrv.toString H k p = (toG (H := H) k).toString H p) ∧
    (∀ k p, XPub.toString H k p = (toGPub (H := H) k).toString H p) ∧
    (∀ a b : XPrv, a.eq b = (toG (H := H) a).eq (toG b)) ∧
    (∀ (a : XPrv) pretty, a.debug pretty = (toG (H := H) a).debug pretty) := by
  have c1 : ∀ k i, (XPrv.deriveChild H k i).map toG = GPrv.deriveChild H (toG (H := H) k) i := by
    intro k i
    rw [XPrv.deriveChild_eq, gprv_deriveChild_eq]
    show Res.map _ (Res.ofOption _ (checkedSucc k.attrs.depth) >>= _) = (Res.ofOption _ (checkedSucc k.attrs.depth) >>= _)
    cases Res.ofOption Error.depth (checkedSucc k.attrs.depth) with
    | err e => rfl
    | panic => rfl
    | ok d =>
      simp only [Res.ok_bind]
      show Res.map _ (PrivateKey.deriveChild k.privateKey _ >>= _) = (PrivateKey.deriveChild k.privateKey _ >>= _)
      have : (toG (H := H) k).hmacInput i = k.hmacInput i := rfl
      rw [this]
      show Res.map _ (PrivateKey.deriveChild k.privateKey (left (H.hmacSha512 k.attrs.chainCode.1 (k.hmacInput i))) >>= _) =
        (PrivateKey.deriveChild k.privateKey (left (H.hmacSha512 k.attrs.chainCode.1 (k.hmacInput i))) >>= _)
      cases PrivateKey.deriveChild k.privateKey (left (H.hmacSha512 k.attrs.chainCode.1 (k.hmacInput i))) <;> rfl
  have c2 : ∀ k i, (XPub.deriveChild H k i).map toGPub = GPub.deriveChild H (toGPub (H := H) k) i := by
    intro k i
    rw [XPub.deriveChild_eq, gpub_deriveChild_eq]
    split
    · rfl
    show Res.map _ (Res.ofOption _ (checkedSucc k.attrs.depth) >>= _) = (Res.ofOption _ (checkedSucc k.attrs.depth) >>= _)
    cases Res.ofOption Error.depth (checkedSucc k.attrs.depth) with
    | err e => rfl
    | panic => rfl
    | ok d =>
      simp only [Res.ok_bind]
      show Res.map _ (PublicKey.deriveChild k.publicKey (left (H.hmacSha512 k.attrs.chainCode.1 ((PublicKey.toBytes k.publicKey).1 ++ i.toBytes.1))) >>= _) =
        (PublicKey.deriveChild k.publicKey (left (H.hmacSha512 k.attrs.chainCode.1 ((PublicKey.toBytes k.publicKey).1 ++ i.toBytes.1))) >>= _)
      cases PublicKey.deriveChild k.publicKey (left (H.hmacSha512 k.attrs.chainCode.1 ((PublicKey.toBytes k.publicKey).1 ++ i.toBytes.1))) <;> rfl
  have f1 : ∀ (l : List ChildNumber) (r : Res Error XPrv),
      (l.foldl (fun m i => m >>= fun k => k.deriveChild H i) r).map (toG (H := H)) =
        l.foldl (fun m i => m >>= fun k => GPrv.deriveChild H k i) (r.map toG) := by
    intro l
    induction l with
    | nil => intro r; rfl
    | cons i l ih =>
      intro r
      rw [List.foldl_cons, List.foldl_cons, ih]
      congr 1
      cases r with
      | ok k => exact c1 k i
      | err e => rfl
      | panic => rfl
  have f2 : ∀ (l : List ChildNumber) (r : Res Error XPub),
      (l.foldl (fun m i => m >>= fun k => k.deriveChild H i) r).map (toGPub (H := H)) =
        l.foldl (fun m i => m >>= fun k => GPub.deriveChild H k i) (r.map toGPub) := by
    intro l
    induction l with
    | nil => intro r; rfl
    | cons i l ih =>
      intro r
      rw [List.foldl_cons, List.foldl_cons, ih]
      congr 1
      cases r with
      | ok k => exact c2 k i
      | err e => rfl
      | panic => rfl
  have n1 : ∀ seed, (XPrv.new H seed).map toG = GPrv.new (secpImpl H) H seed := by
    intro seed
    unfold XPrv.new GPrv.new
    split
    · rfl
    · simp only [tryInto_left, tryInto_right, Res.ok_bind]
      show Res.map _ (PrivateKey.fromBytes _ >>= _) = (PrivateKey.fromBytes _ >>= _)
      cases PrivateKey.fromBytes (left (H.hmacSha512 BIP39_DOMAIN_SEPARATOR seed)) <;> rfl
  refine ⟨n1, ?_, c1, fun k p => f1 _ _, c2, fun k p => f2 _ _, fun _ => rfl, ?_, ?_, fun _ _ => rfl, fun _ _ => rfl,
    fun _ _ => rfl, fun _ _ => rfl⟩
  · intro seed p
    unfold XPrv.newFromPath GPrv.newFromPath
    rw [f1, n1]
  · intro s
    unfold XPrv.fromStr GPrv.fromStr
    cases ExtendedKey.fromStr H s with
    | err e => rfl
    | panic => rfl
    | ok e =>
      simp only [Res.ok_bind]
      unfold XPrv.tryFrom GPrv.tryFrom
      split
      · cases tryIntoArr 32 Error.decode (e.keyBytes.1.drop 1) with
        | err e => rfl
        | panic => rfl
        | ok b =>
          simp only [Res.ok_bind]
          show Res.map _ (PrivateKey.fromBytes _ >>= _) = (PrivateKey.fromBytes _ >>= _)
          cases PrivateKey.fromBytes b <;> rfl
      · rfl
  · intro s
    unfold XPub.fromStr GPub.fromStr
    cases ExtendedKey.fromStr H s with
    | err e => rfl
    | panic => rfl
    | ok e =>
      simp only [Res.ok_bind]
      unfold XPub.tryFrom GPub.tryFrom
      split
      · show Res.map _ (PublicKey.fromBytes _ >>= _) = (PublicKey.fromBytes _ >>= _)
        cases PublicKey.fromBytes e.keyBytes <;> rfl
      · rfl

/-- A key type for the examples: numbers modulo 2^256, where the tweak is added.  Public keys are the same numbers, with
the tag 2 before them. -/
def sumImpl : KeyImpl where
  SK := Nat
  PK := Nat
  fromBytes := fun b => if beNat b.1 = 0 then .err .decode else .ok (beNat b.1)
  toBytes := fun k => ⟨natBE 32 k, by simp⟩
  deriveChild := fun k t => if beNat t.1 = 7 then .panic else .ok ((k + beNat t.1) % 2 ^ 256)
  publicKey := fun k => k
  pubFromBytes := fun b => if b.1.head? = some 2 then .ok (beNat (b.1.drop 1)) else .err .base58
  pubToBytes := fun k => ⟨2 :: natBE 32 k, by simp⟩
  pubDeriveChild := fun k t => if beNat t.1 = 7 then .panic else .ok ((k + beNat t.1) % 2 ^ 256)
  fingerprint := fun k => ⟨natBE 4 k, by simp⟩

instance : DecidableEq sumImpl.SK := inferInstanceAs (DecidableEq Nat)
instance : DecidableEq sumImpl.PK := inferInstanceAs (DecidableEq Nat)

-- the implementation's choice of key, error, panic and fingerprint
example : ((GPrv.new sumImpl (constHash 5) (List.replicate 64 1)).map (fun k => (k.privateKey, k.attrs.depth))) = .ok ((5 : Nat), (0 : UInt8)) ∧
    (GPrv.new sumImpl (constHash 0) (List.replicate 64 1)).map (fun _ => ()) = .err .decode ∧
    (GPrv.new sumImpl (constHash 5) (List.replicate 20 1)).map (fun _ => ()) = .err .seedLength ∧
    ((GPrv.newFromPath sumImpl (constHash 5) (List.replicate 64 1) ⟨[⟨3⟩, ⟨0x80000001⟩]⟩).map
      (fun k => (k.privateKey, k.attrs.depth, k.attrs.parentFingerprint.1, k.attrs.childNumber.n))) =
        .ok ((15 : Nat), (2 : UInt8), ([0, 0, 0, 10] : Bytes), (0x80000001 : BitVec 32)) ∧
    (GPrv.newFromPath sumImpl (constHash 7) (List.replicate 64 1) ⟨[⟨3⟩]⟩).map (fun _ => ()) = .panic := by
  decide +kernel

theorem gprv_tryFrom_eq (K : KeyImpl) (e : ExtendedKey) :
    ∃ (x : UInt8) (b : ByteArr 32), e.keyBytes.1 = x :: b.1 ∧
      GPrv.tryFrom K e = if e.pfx.isPrivate = true ∧ x = 0 then (K.fromBytes b >>= fun sk => .ok ⟨sk, e.attrs⟩) else .err .crypto := by
  obtain ⟨pfx, attrs, ⟨kb, hkb⟩⟩ := e
  rcases kb with _ | ⟨x, xs⟩
  · cases hkb
  have hxs : xs.length = 32 := by simpa using hkb
  refine ⟨x, ⟨xs, hxs⟩, rfl, ?_⟩
  unfold GPrv.tryFrom
  simp only [List.headD_cons, List.drop_one, List.tail_cons, tryIntoArr_ok hxs, Res.ok_bind, Bool.and_eq_true, beq_iff_eq]

theorem letters_of_take {s : Str} {t : Str} (ht : ∀ c ∈ t, Letter c) (h : ∃ c, Letter c ∧ s.take 4 = c :: t) :
    ∀ c ∈ s.take 4, Letter c := by
  obtain ⟨c, hc, hs⟩ := h
  rw [hs]
  intro d hd
  rcases List.mem_cons.1 hd with rfl | hd
  · exact hc
  · exact ht d hd

theorem toString_of_fromStr {H : Hashes} {s : Str} {e : ExtendedKey} (h : ExtendedKey.fromStr H s = .ok e) :
    e.toString H = .ok s := (C40_text_canonical H).1 s e h

/-- C89. Text of extended keys over any key type.  A string parses exactly when it is the Base58Check text of a BIP32 payload
with a private (public) prefix, whose key bytes the implementation accepts; an error or panic of the implementation is passed
on.  If the implementation reads back what it writes, writing then reading returns the key; if it writes back what it reads,
reading then writing returns the text. -/
theorem C89_any_key_text (K : KeyImpl) (H : Hashes) :
    (∀ s k, GPrv.fromStr K H s = .ok k ↔
      (∃ v < 2 ^ 32, ∃ b : ByteArr 32, K.fromBytes b = .ok k.privateKey ∧
        Base58Check (sha256 H) s (layout v k.attrs.depth k.attrs.parentFingerprint.1
          k.attrs.childNumber.n.toNat k.attrs.chainCode.1 (0 :: b.1))) ∧
      ∃ c, Letter c ∧ s.take 4 = [c, 'p', 'r', 'v']) ∧
    (∀ s k, GPub.fromStr K H s = .ok k ↔
      (∃ v < 2 ^ 32, ∃ b : ByteArr 33, K.pubFromBytes b = .ok k.publicKey ∧
        Base58Check (sha256 H) s (layout v k.attrs.depth k.attrs.parentFingerprint.1
          k.attrs.childNumber.n.toNat k.attrs.chainCode.1 b.1)) ∧
      ∃ c, Letter c ∧ s.take 4 = [c, 'p', 'u', 'b']) ∧
    (∀ s x, ExtendedKey.fromStr H s = .err x → GPrv.fromStr K H s = .err x ∧ GPub.fromStr K H s = .err x) ∧
    (∀ s e, ExtendedKey.fromStr H s = .ok e →
      (¬ (∃ c, Letter c ∧ s.take 4 = [c, 'p', 'r', 'v']) ∨ e.keyBytes.1.head? ≠ some 0 → GPrv.fromStr K H s = .err .crypto) ∧
      (¬ (∃ c, Letter c ∧ s.take 4 = [c, 'p', 'u', 'b']) → GPub.fromStr K H s = .err .crypto) ∧
      (∀ b : ByteArr 32, (∃ c, Letter c ∧ s.take 4 = [c, 'p', 'r', 'v']) → e.keyBytes.1 = 0 :: b.1 →
        Follows GPrv.privateKey (GPrv.fromStr K H s) (K.fromBytes b)) ∧
      ((∃ c, Letter c ∧ s.take 4 = [c, 'p', 'u', 'b']) →
        Follows GPub.publicKey (GPub.fromStr K H s) (K.pubFromBytes e.keyBytes))) ∧
    (∀ (k : GPrv K) p, p ∈ [Prefix.TPRV, .XPRV, .YPRV, .ZPRV] → K.fromBytes (K.toBytes k.privateKey) = .ok k.privateKey →
      ∃ s, k.toString H p = .ok s ∧ GPrv.fromStr K H s = .ok k) ∧
    (∀ (k : GPub K) p, p ∈ [Prefix.TPUB, .XPUB, .YPUB, .ZPUB] → K.pubFromBytes (K.pubToBytes k.publicKey) = .ok k.publicKey →
      ∃ s, k.toString H p = .ok s ∧ GPub.fromStr K H s = .ok k) ∧
    ((∀ b sk, K.fromBytes b = .ok sk → K.toBytes sk = b) → ∀ s k, GPrv.fromStr K H s = .ok k →
      ∃ e, ExtendedKey.fromStr H s = .ok e ∧ k.toString H e.pfx = .ok s) ∧
    ((∀ b pk, K.pubFromBytes b = .ok pk → K.pubToBytes pk = b) → ∀ s k, GPub.fromStr K H s = .ok k →
      ∃ e, ExtendedKey.fromStr H s = .ok e ∧ k.toString H e.pfx = .ok s) := by
  have hprv : ∀ c ∈ ['p', 'r', 'v'], Letter c := by unfold Letter; decide
  have hpub : ∀ c ∈ ['p', 'u', 'b'], Letter c := by unfold Letter; decide
  -- what success means, in terms of the parsed extended key
  have okp : ∀ s k, GPrv.fromStr K H s = .ok k → ∃ e, ExtendedKey.fromStr H s = .ok e ∧ e.pfx.isPrivate = true ∧
      e.attrs = k.attrs ∧ ∃ b : ByteArr 32, e.keyBytes.1 = 0 :: b.1 ∧ K.fromBytes b = .ok k.privateKey := by
    intro s k h
    unfold GPrv.fromStr at h
    rw [Res.bind_eq_ok] at h
    obtain ⟨e, he, h⟩ := h
    obtain ⟨x, b, h1, h2⟩ := gprv_tryFrom_eq K e
    rw [h2] at h
    split at h
    · rename_i hc
      rw [Res.bind_eq_ok] at h
      obtain ⟨sk, h3, h4⟩ := h
      cases h4
      exact ⟨e, he, hc.1, rfl, b, by rw [h1, hc.2], h3⟩
    · cases h
  have okq : ∀ s k, GPub.fromStr K H s = .ok k → ∃ e, ExtendedKey.fromStr H s = .ok e ∧ e.pfx.isPublic = true ∧
      e.attrs = k.attrs ∧ K.pubFromBytes e.keyBytes = .ok k.publicKey := by
    intro s k h
    unfold GPub.fromStr at h
    rw [Res.bind_eq_ok] at h
    obtain ⟨e, he, h⟩ := h
    unfold GPub.tryFrom at h
    split at h
    · rename_i hc
      rw [Res.bind_eq_ok] at h
      obtain ⟨sk, h3, h4⟩ := h
      cases h4
      exact ⟨e, he, hc, rfl, h3⟩
    · cases h
  -- the parsed key decides
  have rp : ∀ s e, ExtendedKey.fromStr H s = .ok e → e.pfx.isPrivate = true → ∀ b : ByteArr 32, e.keyBytes.1 = 0 :: b.1 →
      GPrv.fromStr K H s = (K.fromBytes b >>= fun sk => .ok ⟨sk, e.attrs⟩) := by
    intro s e he hp b hb
    unfold GPrv.fromStr
    rw [he, Res.ok_bind]
    obtain ⟨x, b', h1, h2⟩ := gprv_tryFrom_eq K e
    rw [hb] at h1
    injection h1 with e1 e2
    have e3 := Subtype.ext e2
    subst e1 e3
    rw [h2, if_pos ⟨hp, rfl⟩]
  have rq : ∀ s e, ExtendedKey.fromStr H s = .ok e → e.pfx.isPublic = true →
      GPub.fromStr K H s = (K.pubFromBytes e.keyBytes >>= fun sk => .ok ⟨sk, e.attrs⟩) := by
    intro s e he hp
    unfold GPub.fromStr
    rw [he, Res.ok_bind]
    unfold GPub.tryFrom
    rw [if_pos hp]
  refine ⟨?_, ?_, ?_, ?_, ?_, ?_, ?_, ?_⟩
  · intro s k
    constructor
    · intro h
      obtain ⟨e, he, h1, h2, b, h3, h4⟩ := okp s k h
      have := ((ExtendedKey.fromStr_iff H s e).1 he).1
      rw [layout_serialize, h2, h3] at this
      exact ⟨⟨_, e.pfx.version.isLt, b, h4, this⟩, (isPrivate_iff he).1 h1⟩
    · rintro ⟨⟨v, hv, b, hb, hs⟩, hc⟩
      obtain ⟨p, _, hp⟩ := fromStr_of_layout (kb := ⟨0 :: b.1, by simp [b.2]⟩) hv hs (letters_of_take hprv hc)
      rw [rp s _ hp ((isPrivate_iff hp).2 hc) b rfl, hb]
      rfl
  · intro s k
    constructor
    · intro h
      obtain ⟨e, he, h1, h2, h3⟩ := okq s k h
      have := ((ExtendedKey.fromStr_iff H s e).1 he).1
      rw [layout_serialize, h2] at this
      exact ⟨⟨_, e.pfx.version.isLt, e.keyBytes, h3, this⟩, (isPublic_iff he).1 h1⟩
    · rintro ⟨⟨v, hv, b, hb, hs⟩, hc⟩
      obtain ⟨p, _, hp⟩ := fromStr_of_layout (kb := b) hv hs (letters_of_take hpub hc)
      rw [rq s _ hp ((isPublic_iff hp).2 hc), hb]
      rfl
  · intro s x h
    unfold GPrv.fromStr GPub.fromStr
    rw [h]
    exact ⟨rfl, rfl⟩
  · intro s e he
    refine ⟨fun h => ?_, fun h => ?_, fun b hc hb => ?_, fun hc => ?_⟩
    · unfold GPrv.fromStr
      rw [he, Res.ok_bind]
      obtain ⟨x, b', h1, h2⟩ := gprv_tryFrom_eq K e
      rw [h2, if_neg]
      rintro ⟨h3, rfl⟩
      rcases h with h | h
      · exact h ((isPrivate_iff he).1 h3)
      · rw [h1] at h; exact h rfl
    · unfold GPub.fromStr
      rw [he, Res.ok_bind]
      unfold GPub.tryFrom
      rw [if_neg (fun h' => h ((isPublic_iff he).1 h'))]
    · rw [rp s e he ((isPrivate_iff he).2 hc) b hb]
      unfold Follows
      cases K.fromBytes b <;> rfl
    · rw [rq s e he ((isPublic_iff he).2 hc)]
      unfold Follows
      cases K.pubFromBytes e.keyBytes <;> rfl
  · intro k p hp hk
    obtain ⟨h1, h2, _⟩ := priv_const hp
    obtain ⟨s, hs, hf⟩ := (C47_version_determines_prefix_partial H (k.toExtendedKey p)).1 h1
    refine ⟨s, hs, ?_⟩
    rw [rp s _ hf h2 k.toBytes rfl]
    unfold GPrv.toBytes
    rw [hk]
    rfl
  · intro k p hp hk
    obtain ⟨h1, _, h2⟩ := pub_const hp
    obtain ⟨s, hs, hf⟩ := (C47_version_determines_prefix_partial H (k.toExtendedKey p)).1 h1
    refine ⟨s, hs, ?_⟩
    rw [rq s _ hf h2]
    show (K.pubFromBytes (K.pubToBytes k.publicKey) >>= _) = _
    rw [hk]
    rfl
  · intro law s k h
    obtain ⟨e, he, h1, h2, b, h3, h4⟩ := okp s k h
    refine ⟨e, he, ?_⟩
    have : k.toExtendedKey e.pfx = e := by
      obtain ⟨p, a, kb⟩ := e
      unfold GPrv.toExtendedKey
      have e1 : (⟨0 :: k.toBytes.1, by simp [k.toBytes.2]⟩ : ByteArr 33) = kb := by
        apply Subtype.ext
        show 0 :: k.toBytes.1 = kb.1
        unfold GPrv.toBytes
        rw [law b _ h4]
        exact h3.symm
      rw [e1, ← h2]
    unfold GPrv.toString
    rw [this]
    exact toString_of_fromStr he
  · intro law s k h
    obtain ⟨e, he, h1, h2, h3⟩ := okq s k h
    refine ⟨e, he, ?_⟩
    have : k.toExtendedKey e.pfx = e := by
      obtain ⟨p, a, kb⟩ := e
      unfold GPub.toExtendedKey GPub.toBytes
      rw [law _ _ h3, ← h2]
    unfold GPub.toString
    rw [this]
    exact toString_of_fromStr he

-- the example type writes back what it reads, and its keys read back
example : (∀ b sk, sumImpl.fromBytes b = .ok sk → sumImpl.toBytes sk = b) ∧
    sumImpl.fromBytes (sumImpl.toBytes (5 : Nat)) = .ok (5 : Nat) := by
  refine ⟨fun b sk h => ?_, by decide +kernel⟩
  unfold sumImpl at h
  simp only at h
  split at h
  · cases h
  · cases h
    have h := natBE_beNat b.1
    rw [b.2] at h
    exact Subtype.ext h

/-- C90. Watch-only derivation over any key type: public derivation agrees with private derivation, for all keys, hash
functions and non-hardened paths, exactly when the implementation's `derive_child` commutes with its `public_key`. -/
theorem C90_any_key_watch_only (K : KeyImpl) :
    (∀ sk t, (K.deriveChild sk t).map K.publicKey = K.pubDeriveChild (K.publicKey sk) t) ↔
    (∀ (H : Hashes) (k : GPrv K) (p : DerivationPath), (∀ i ∈ p.iter, i.n.toNat < 2 ^ 31) →
      (k.deriveFromPath H p).map GPrv.publicKey = k.publicKey.deriveFromPath H p) := by
  constructor
  · intro law H
    have one : ∀ (k : GPrv K) i, i.n.toNat < 2 ^ 31 → (k.deriveChild H i).map GPrv.publicKey = k.publicKey.deriveChild H i := by
      intro k i hi
      have hh : i.isHardened = false := by
        rw [Bool.eq_false_iff, Ne, ChildNumber.isHardened_iff]; omega
      rw [gprv_deriveChild_eq, gpub_deriveChild_eq, hh]
      have hin : k.hmacInput i = (K.pubToBytes k.publicKey.publicKey).1 ++ i.toBytes.1 := by
        unfold GPrv.hmacInput
        rw [hh]
        rfl
      rw [hin]
      simp only [GPrv.publicKey, ← law]
      cases Res.ofOption Error.depth (checkedSucc k.attrs.depth) with
      | err e => rfl
      | panic => rfl
      | ok d =>
        simp only [Res.ok_bind]
        generalize K.deriveChild k.privateKey _ = r
        cases r <;> rfl
    rintro k ⟨l⟩ h
    unfold GPrv.deriveFromPath GPub.deriveFromPath
    simp only [DerivationPath.iter] at h ⊢
    induction l generalizing k with
    | nil => rfl
    | cons i l ih =>
      rw [List.foldl_cons, List.foldl_cons, foldl_bind (fun (b : GPrv K) a => b.deriveChild H a),
        foldl_bind (fun (b : GPub K) a => b.deriveChild H a)]
      simp only [Res.ok_bind]
      rw [← one k i (h i (by simp))]
      cases k.deriveChild H i with
      | err e => rfl
      | panic => rfl
      | ok k' =>
        simp only [Res.ok_bind, Res.map_ok]
        exact ih k' (fun j hj => h j (by simp [hj]))
  · intro h sk t
    -- a hash function whose left half is `t`
    let H : Hashes := ⟨fun _ => zeroArr 32, fun _ => ⟨t.1 ++ natBE 32 0, by simp [t.2]⟩, fun _ => zeroArr 20⟩
    have hl : ∀ key msg, left (H.hmacSha512 key msg) = t := by
      intro key msg
      apply Subtype.ext
      show List.take 32 (t.1 ++ natBE 32 0) = t.1
      rw [List.take_append_of_le_length (by rw [t.2])]
      exact List.take_of_length_le (by rw [t.2])
    have := h H ⟨sk, ⟨0, zeroArr 4, ⟨0⟩, zeroArr 32⟩⟩ ⟨[⟨0⟩]⟩ (by decide)
    have h2 := congrArg (Res.map GPub.publicKey) this
    unfold GPrv.deriveFromPath GPub.deriveFromPath at h2
    simp only [DerivationPath.iter, List.foldl_cons, List.foldl_nil, Res.ok_bind] at h2
    rw [gprv_deriveChild_eq, gpub_deriveChild_eq, hl, hl] at h2
    have hd : checkedSucc 0 = some 1 := by decide
    simp only [hd, Res.ofOption_some, Res.ok_bind, GPrv.publicKey] at h2
    rw [if_neg (by decide)] at h2
    cases h3 : K.deriveChild sk t <;> cases h4 : K.pubDeriveChild (K.publicKey sk) t <;> rw [h3, h4] at h2 <;>
      first
        | rfl
        | (cases h2; done)
        | (cases h2; rfl)

-- libsecp256k1's keys and the example type satisfy the condition; a type that subtracts on the public side does not
example (H : Hashes) (sk : (secpImpl H).SK) (t : ByteArr 32) :
    ((secpImpl H).deriveChild sk t).map (secpImpl H).publicKey = (secpImpl H).pubDeriveChild ((secpImpl H).publicKey sk) t :=
  (deriveChild_public sk t).symm
example (sk : sumImpl.SK) (t : ByteArr 32) :
    (sumImpl.deriveChild sk t).map sumImpl.publicKey = sumImpl.pubDeriveChild (sumImpl.publicKey sk) t := by
  unfold sumImpl
  simp only
  split <;> rfl
def subImpl : KeyImpl := { sumImpl with pubDeriveChild := fun (k : Nat) t => .ok ((k - beNat t.1 : Nat) : Nat) }
example : ¬ ∀ sk t, (subImpl.deriveChild sk t).map subImpl.publicKey = subImpl.pubDeriveChild (subImpl.publicKey sk) t := by
  intro h
  have h1 := h (1 : Nat) ⟨natBE 32 1, by simp⟩
  have h2 : (Res.ok ((1 + 1) % 2 ^ 256) : Res Error Nat) = .ok (1 - 1) := h1
  cases h2

end Kms.Props
