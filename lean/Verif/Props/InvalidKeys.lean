import Verif.Spec.Bip32Text
import Verif.Props.KeyText
/-
Which extended keys that BIP32 calls invalid are refused (C134).
-/
namespace Kms.Props
open Kms.Bip32 Kms.Spec Kms.Spec.Bip32
open Kms.Spec.Secp (Point G n HasCoords)
open Kms.Secp (SecretKey)

theorem be4_inj {v w : Nat} (hv : v < 2 ^ 32) (hw : w < 2 ^ 32) (h : be4 v = be4 w) : v = w := by
  unfold be4 at h
  simp only [List.cons.injEq, and_true, ← UInt8.toNat_inj, UInt8.toNat_ofNat'] at h
  omega

theorem layout_inj {v v' : Nat} {d d' : UInt8} {f f' : List UInt8} {i i' : Nat} {c c' k k' : List UInt8}
    (hv : v < 2 ^ 32) (hv' : v' < 2 ^ 32) (hf : f.length = 4) (hf' : f'.length = 4) (hi : i < 2 ^ 32) (hi' : i' < 2 ^ 32)
    (hc : c.length = 32) (hc' : c'.length = 32) (h : layout v d f i c k = layout v' d' f' i' c' k') :
    v = v' ∧ d = d' ∧ f = f' ∧ i = i' ∧ c = c' ∧ k = k' := by
  unfold layout at h
  simp only [List.append_assoc] at h
  obtain ⟨h1, h⟩ := List.append_inj h (by simp [be4])
  obtain ⟨h2, h⟩ := List.append_inj h (by simp)
  obtain ⟨h3, h⟩ := List.append_inj h (by rw [hf, hf'])
  obtain ⟨h4, h⟩ := List.append_inj h (by simp [be4])
  obtain ⟨h5, h⟩ := List.append_inj h (by rw [hc, hc'])
  exact ⟨be4_inj hv hv' h1, by simpa using h2, h3, be4_inj hi hi' h4, h5, h⟩

theorem version_lt {v : Nat} (h : v ∈ privateVersions ∨ v ∈ publicVersions) : v < 2 ^ 32 := by
  simp only [privateVersions, publicVersions, List.mem_cons, List.not_mem_nil, or_false] at h
  omega

/-- What is valid of a payload, read off its fields. -/
theorem validPrivate_iff {v : Nat} {d : UInt8} {f : List UInt8} {i : Nat} {c : List UInt8} {k : Nat} (hv : v < 2 ^ 32)
    (hf : f.length = 4) (hi : i < 2 ^ 32) (hc : c.length = 32) (hk : 0 < k ∧ k < n) :
    ValidPrivate (layout v d f i c (0 :: ser256 k)) ↔ v ∈ privateVersions ∧ RootHasNoParent d f i := by
  constructor
  · rintro ⟨v', d', f', i', c', k', h, hf', hi', hc', hv', _, _, hr⟩
    obtain ⟨rfl, rfl, rfl, rfl, _, _⟩ := layout_inj hv (version_lt (.inl hv')) hf hf' hi hi' hc hc' h
    exact ⟨hv', hr⟩
  · rintro ⟨h1, h2⟩
    exact ⟨v, d, f, i, c, k, rfl, hf, hi, hc, h1, hk.1, hk.2, h2⟩

theorem validPublic_iff {v : Nat} {d : UInt8} {f : List UInt8} {i : Nat} {c : List UInt8} {Q : Point} (hv : v < 2 ^ 32)
    (hf : f.length = 4) (hi : i < 2 ^ 32) (hc : c.length = 32) (hQ : Q ≠ 0) :
    ValidPublic (layout v d f i c (serP Q)) ↔ v ∈ publicVersions ∧ RootHasNoParent d f i := by
  constructor
  · rintro ⟨v', d', f', i', c', k', h, hf', hi', hc', hv', _, hr⟩
    obtain ⟨rfl, rfl, rfl, rfl, _, _⟩ := layout_inj hv (version_lt (.inr hv')) hf hf' hi hi' hc hc' h
    exact ⟨hv', hr⟩
  · rintro ⟨h1, h2⟩
    exact ⟨v, d, f, i, c, Q, rfl, hf, hi, hc, h1, hQ, h2⟩

theorem coords_ne {Q : Point} {x y : Nat} (h : HasCoords Q x y) : Q ≠ 0 := by
  rintro rfl
  cases h

/-- The key read from a text with one of the eight versions that have a name. -/
theorem known_text {H : Hashes} {s : Str} {p : Prefix} {a : ExtendedKeyAttrs} {kb : ByteArr 33}
    (hp : p ∈ [Prefix.TPRV, .TPUB, .XPRV, .XPUB, .YPRV, .YPUB, .ZPRV, .ZPUB])
    (h : Base58Check (sha256 H) s (layout p.version.toNat a.depth a.parentFingerprint.1 a.childNumber.n.toNat
      a.chainCode.1 kb.1)) : ExtendedKey.fromStr H s = .ok ⟨p, a, kb⟩ := by
  obtain ⟨s', h1, h2⟩ := (C47_version_determines_prefix_partial H ⟨p, a, kb⟩).1 hp
  have h3 : (⟨p, a, kb⟩ : ExtendedKey).toString H = .ok s := by
    rw [ExtendedKey.toString_iff, layout_serialize]
    exact h
  rw [h1] at h3
  cases h3
  exact h2

theorem priv_version {v : Nat} (h : v ∈ privateVersions) :
    ∃ p ∈ [Prefix.TPRV, .XPRV, .YPRV, .ZPRV], p.version.toNat = v := by
  simp only [privateVersions, List.mem_cons, List.not_mem_nil, or_false] at h
  rcases h with rfl | rfl
  · exact ⟨.XPRV, by decide +kernel, rfl⟩
  · exact ⟨.TPRV, by decide +kernel, rfl⟩

theorem pub_version {v : Nat} (h : v ∈ publicVersions) :
    ∃ p ∈ [Prefix.TPUB, .XPUB, .YPUB, .ZPUB], p.version.toNat = v := by
  simp only [publicVersions, List.mem_cons, List.not_mem_nil, or_false] at h
  rcases h with rfl | rfl
  · exact ⟨.XPUB, by decide +kernel, rfl⟩
  · exact ⟨.TPUB, by decide +kernel, rfl⟩

/-- The attributes with given fields. -/
theorem attrs_of (d : UInt8) {f : List UInt8} {i : Nat} {c : List UInt8} (hf : f.length = 4) (hi : i < 2 ^ 32)
    (hc : c.length = 32) : ∃ a : ExtendedKeyAttrs, a.depth = d ∧ a.parentFingerprint.1 = f ∧
      a.childNumber.n.toNat = i ∧ a.chainCode.1 = c :=
  ⟨⟨d, ⟨f, hf⟩, ⟨BitVec.ofNat 32 i⟩, ⟨c, hc⟩⟩, rfl, rfl, by
    show (BitVec.ofNat 32 i).toNat = i
    rw [BitVec.toNat_ofNat]; exact Nat.mod_eq_of_lt hi, rfl⟩

theorem serP_length {Q : Point} (h : Q ≠ 0) : (serP Q).length = 33 := by
  cases Q with
  | zero => exact absurd rfl h
  | some x y hxy => simp [serP, ser256]

theorem key_of_point {Q : Point} (h : Q ≠ 0) : ∃ q : Kms.Secp.PublicKey, HasCoords Q q.x q.y := by
  cases Q with
  | zero => exact absurd rfl h
  | some x y hxy => exact ⟨⟨x.val, y.val⟩, rfl, rfl⟩

theorem layout_take4 (v : Nat) (d : UInt8) (f : List UInt8) (i : Nat) (c k : List UInt8) :
    (layout v d f i c k).take 4 = be4 v := by
  unfold layout
  simp only [List.append_assoc]
  exact List.take_left' (by simp [be4])

/-- C134 (partial; the full claim is that whatever is accepted is valid, which `C134_invalid_accepted` refutes).  Every
text of a valid extended key is read, as the key with its fields.  An accepted text is the Base58Check text of a payload
that is valid unless its version is not one of BIP32's or it has depth zero and a parent fingerprint or child number
other than zero.  So every other invalid key is refused: a bad checksum or length, the version of the other kind of key,
a wrong first key byte, a private key that is zero or at least `n`, a point that is not on the curve. -/
theorem C134_invalid_keys_refused_partial (H : Hashes) (s : Str) :
    (∀ b, Base58Check (sha256 H) s b → ValidPrivate b → ∃ k, XPrv.fromStr H s = .ok k ∧ ∃ v,
      b = layout v k.attrs.depth k.attrs.parentFingerprint.1 k.attrs.childNumber.n.toNat k.attrs.chainCode.1
        (0 :: ser256 k.privateKey.k)) ∧
    (∀ b, Base58Check (sha256 H) s b → ValidPublic b → ∃ k, XPub.fromStr H s = .ok k ∧ ∃ v Q,
      HasCoords Q k.publicKey.x k.publicKey.y ∧
      b = layout v k.attrs.depth k.attrs.parentFingerprint.1 k.attrs.childNumber.n.toNat k.attrs.chainCode.1 (serP Q)) ∧
    (∀ k, XPrv.fromStr H s = .ok k → ∃ v b, Base58Check (sha256 H) s b ∧ b.take 4 = be4 v ∧ v < 2 ^ 32 ∧
      v ∉ publicVersions ∧
      (ValidPrivate b ↔ v ∈ privateVersions ∧
        RootHasNoParent k.attrs.depth k.attrs.parentFingerprint.1 k.attrs.childNumber.n.toNat)) ∧
    (∀ k, XPub.fromStr H s = .ok k → ∃ v b, Base58Check (sha256 H) s b ∧ b.take 4 = be4 v ∧ v < 2 ^ 32 ∧
      v ∉ privateVersions ∧
      (ValidPublic b ↔ v ∈ publicVersions ∧
        RootHasNoParent k.attrs.depth k.attrs.parentFingerprint.1 k.attrs.childNumber.n.toNat)) := by
  refine ⟨?_, ?_, ?_, ?_⟩
  · rintro b hb ⟨v, d, f, i, c, k, rfl, hf, hi, hc, hv, hk, hk', hr⟩
    obtain ⟨a, rfl, rfl, rfl, rfl⟩ := attrs_of d hf hi hc
    obtain ⟨p, hp, rfl⟩ := priv_version hv
    obtain ⟨h1, h2, _⟩ := priv_const hp
    have h := known_text (kb := ⟨0 :: ser256 k, by simp [ser256]⟩) h1 hb
    exact ⟨⟨⟨k, hk, hk'⟩, a⟩, ((C59_xprv_acceptance H s).1 _).2 ⟨⟨_, p.version.isLt, hb⟩, (isPrivate_iff h).1 h2⟩, _, rfl⟩
  · rintro b hb ⟨v, d, f, i, c, Q, rfl, hf, hi, hc, hv, hQ, hr⟩
    obtain ⟨a, rfl, rfl, rfl, rfl⟩ := attrs_of d hf hi hc
    obtain ⟨p, hp, rfl⟩ := pub_version hv
    obtain ⟨h1, _, h2⟩ := pub_const hp
    have h := known_text (kb := ⟨serP Q, serP_length hQ⟩) h1 hb
    obtain ⟨q, hq⟩ := key_of_point hQ
    exact ⟨⟨q, a⟩, ((C60_xpub_acceptance H s).1 _).2 ⟨⟨_, p.version.isLt, Q, hq, hb⟩, (isPublic_iff h).1 h2⟩, _, Q, hq, rfl⟩
  · intro k hk
    obtain ⟨⟨v, hv, hb⟩, c, hc, hs⟩ := ((C59_xprv_acceptance H s).1 k).1 hk
    refine ⟨v, _, hb, layout_take4 .., hv, ?_, validPrivate_iff hv k.attrs.parentFingerprint.2
      k.attrs.childNumber.n.isLt k.attrs.chainCode.2 ⟨k.privateKey.pos, k.privateKey.lt⟩⟩
    intro hv'
    obtain ⟨p, hp, rfl⟩ := pub_version hv'
    obtain ⟨h1, _, h2⟩ := pub_const hp
    obtain ⟨c', _, hs'⟩ := (isPublic_iff (known_text (kb := ⟨0 :: ser256 k.privateKey.k, by simp [ser256]⟩) h1 hb)).1 h2
    rw [hs] at hs'
    simp at hs'
  · intro k hk
    obtain ⟨⟨v, hv, Q, hQ, hb⟩, c, hc, hs⟩ := ((C60_xpub_acceptance H s).1 k).1 hk
    refine ⟨v, _, hb, layout_take4 .., hv, ?_, validPublic_iff hv k.attrs.parentFingerprint.2
      k.attrs.childNumber.n.isLt k.attrs.chainCode.2 (coords_ne hQ)⟩
    intro hv'
    obtain ⟨p, hp, rfl⟩ := priv_version hv'
    obtain ⟨h1, h2, _⟩ := priv_const hp
    obtain ⟨c', _, hs'⟩ := (isPrivate_iff (known_text (kb := ⟨serP Q, serP_length (coords_ne hQ)⟩) h1 hb)).1 h2
    rw [hs] at hs'
    simp at hs'

theorem prv_payload {H : Hashes} {k : XPrv} {p : Prefix} {s : Str} (h : k.toString H p = .ok s) :
    Base58Check (sha256 H) s (layout p.version.toNat k.attrs.depth k.attrs.parentFingerprint.1
      k.attrs.childNumber.n.toNat k.attrs.chainCode.1 (0 :: ser256 k.privateKey.k)) := by
  have := (ExtendedKey.toString_iff H _ s).1 h
  rw [layout_serialize] at this
  rw [ser256_eq]
  exact this

theorem pub_payload {H : Hashes} {k : XPub} {Q : Point} (hQ : HasCoords Q k.publicKey.x k.publicKey.y) {p : Prefix}
    {s : Str} (h : k.toString H p = .ok s) :
    Base58Check (sha256 H) s (layout p.version.toNat k.attrs.depth k.attrs.parentFingerprint.1
      k.attrs.childNumber.n.toNat k.attrs.chainCode.1 (serP Q)) := by
  have := (ExtendedKey.toString_iff H _ s).1 h
  rw [layout_serialize] at this
  rw [← show k.toBytes.1 = serP Q from (C50_compressed_keys.1 _ Q hQ).1]
  exact this

/-- Whatever key `k` has depth zero and another parent, its text is accepted although BIP32 calls it invalid; so is the
text of any key with a version that is not BIP32's, such as those of SLIP-132. -/
theorem C134_invalid_accepted (H : Hashes) :
    (∀ k : XPrv, k.attrs.depth = 0 → k.attrs.parentFingerprint.1 ≠ [0, 0, 0, 0] ∨ k.attrs.childNumber.n ≠ 0 →
      ∀ p ∈ [Prefix.TPRV, .XPRV, .YPRV, .ZPRV], ∃ s b, Base58Check (sha256 H) s b ∧ ¬ ValidPrivate b ∧
        k.toString H p = .ok s ∧ XPrv.fromStr H s = .ok k) ∧
    (∀ k : XPrv, ∀ p ∈ [Prefix.YPRV, .ZPRV], ∃ s b, Base58Check (sha256 H) s b ∧ ¬ ValidPrivate b ∧
        k.toString H p = .ok s ∧ XPrv.fromStr H s = .ok k) ∧
    ¬ (∀ s b k, Base58Check (sha256 H) s b → XPrv.fromStr H s = .ok k → ValidPrivate b) ∧
    ¬ (∀ s b k, Base58Check (sha256 H) s b → XPub.fromStr H s = .ok k → ValidPublic b) := by
  have one : ∀ (k : XPrv) (p : Prefix), p ∈ [Prefix.TPRV, .XPRV, .YPRV, .ZPRV] →
      ¬ (p.version.toNat ∈ privateVersions ∧
        RootHasNoParent k.attrs.depth k.attrs.parentFingerprint.1 k.attrs.childNumber.n.toNat) →
      ∃ s b, Base58Check (sha256 H) s b ∧ ¬ ValidPrivate b ∧ k.toString H p = .ok s ∧ XPrv.fromStr H s = .ok k := by
    intro k p hp hn
    obtain ⟨s, h1, h2⟩ := C38_xprv_round_trip H k p hp
    refine ⟨s, _, prv_payload h1, ?_, h1, h2⟩
    rwa [validPrivate_iff p.version.isLt k.attrs.parentFingerprint.2 k.attrs.childNumber.n.isLt k.attrs.chainCode.2
      ⟨k.privateKey.pos, k.privateKey.lt⟩]
  have two : ∀ k : XPrv, ∀ p ∈ [Prefix.YPRV, .ZPRV], ∃ s b, Base58Check (sha256 H) s b ∧ ¬ ValidPrivate b ∧
        k.toString H p = .ok s ∧ XPrv.fromStr H s = .ok k := by
    intro k p hp
    simp only [List.mem_cons, List.not_mem_nil, or_false] at hp
    rcases hp with rfl | rfl
    · exact one k _ (by decide +kernel) (fun h => absurd h.1 (by decide +kernel))
    · exact one k _ (by decide +kernel) (fun h => absurd h.1 (by decide +kernel))
  refine ⟨?_, two, ?_, ?_⟩
  · intro k hd hk p hp
    refine one k p hp ?_
    rintro ⟨_, hr⟩
    obtain ⟨h1, h2⟩ := hr hd
    rcases hk with hk | hk
    · exact hk h1
    · exact hk (BitVec.eq_of_toNat_eq h2)
  · intro h
    obtain ⟨s, b, h1, h2, _, h4⟩ := two exKey .YPRV (by decide +kernel)
    exact h2 (h s b exKey h1 h4)
  · intro h
    obtain ⟨s, h1, h2⟩ := C39_xpub_round_trip H exKey.publicKey .YPUB (by decide +kernel)
      (.inl (.publicKey _ (xprv_reachable H exKey)))
    have hb := pub_payload (publicKey_coords exKey) h1
    have := h s _ _ hb h2
    rw [validPublic_iff (BitVec.isLt _) exKey.publicKey.attrs.parentFingerprint.2
      exKey.publicKey.attrs.childNumber.n.isLt exKey.publicKey.attrs.chainCode.2
      (coords_ne (publicKey_coords exKey))] at this
    exact absurd this.1 (by decide +kernel)

-- such a key: depth zero, fingerprint 1, 2, 3, 4
example (H : Hashes) : ∃ s b, Base58Check (sha256 H) s b ∧ ¬ ValidPrivate b ∧
    XPrv.fromStr H s = .ok { exKey with attrs := { exKey.attrs with depth := 0, parentFingerprint := ⟨[1, 2, 3, 4], rfl⟩ } } := by
  obtain ⟨s, b, h1, h2, _, h3⟩ := (C134_invalid_accepted H).1
    { exKey with attrs := { exKey.attrs with depth := 0, parentFingerprint := ⟨[1, 2, 3, 4], rfl⟩ } } rfl
    (.inl (by decide)) .XPRV (by decide +kernel)
  exact ⟨s, b, h1, h2, h3⟩

/-- The ways of making an extended private key without reading one. -/
inductive MadePrv (H : Hashes) : XPrv → Prop
  | new (seed : Bytes) (k : XPrv) : XPrv.new H seed = .ok k → MadePrv H k
  | newFromPath (seed : Bytes) (path : DerivationPath) (k : XPrv) : XPrv.newFromPath H seed path = .ok k → MadePrv H k
  | deriveChild (k : XPrv) (i : ChildNumber) (c : XPrv) : MadePrv H k → k.deriveChild H i = .ok c → MadePrv H c
  | deriveFromPath (k : XPrv) (path : DerivationPath) (c : XPrv) :
      MadePrv H k → k.deriveFromPath H path = .ok c → MadePrv H c

/-- The ways of making an extended public key without reading one. -/
inductive MadePub (H : Hashes) : XPub → Prop
  | publicKey (k : XPrv) : MadePrv H k → MadePub H k.publicKey
  | deriveChild (k : XPub) (i : ChildNumber) (c : XPub) : MadePub H k → k.deriveChild H i = .ok c → MadePub H c
  | deriveFromPath (k : XPub) (path : DerivationPath) (c : XPub) :
      MadePub H k → k.deriveFromPath H path = .ok c → MadePub H c

theorem prv_path_root {H : Hashes} {k c : XPrv} {path : DerivationPath}
    (hk : RootHasNoParent k.attrs.depth k.attrs.parentFingerprint.1 k.attrs.childNumber.n.toNat)
    (h : k.deriveFromPath H path = .ok c) :
    RootHasNoParent c.attrs.depth c.attrs.parentFingerprint.1 c.attrs.childNumber.n.toNat := by
  obtain ⟨l⟩ := path
  rcases l with _ | ⟨i, l⟩
  · cases h
    exact hk
  · intro h0
    have := ((C33_depth H).2.2.2.2.1 k c _ h).1
    rw [h0] at this
    simp [DerivationPath.len] at this

theorem pub_path_root {H : Hashes} {k c : XPub} {path : DerivationPath}
    (hk : RootHasNoParent k.attrs.depth k.attrs.parentFingerprint.1 k.attrs.childNumber.n.toNat)
    (h : k.deriveFromPath H path = .ok c) :
    RootHasNoParent c.attrs.depth c.attrs.parentFingerprint.1 c.attrs.childNumber.n.toNat := by
  obtain ⟨l⟩ := path
  rcases l with _ | ⟨i, l⟩
  · cases h
    exact hk
  · intro h0
    have := ((C33_depth H).2.2.2.2.2.1 k c _ h).1
    rw [h0] at this
    simp [DerivationPath.len] at this

theorem new_root {H : Hashes} {seed : Bytes} {k : XPrv} (h : XPrv.new H seed = .ok k) :
    RootHasNoParent k.attrs.depth k.attrs.parentFingerprint.1 k.attrs.childNumber.n.toNat := by
  obtain ⟨_, _, _, _, _, _, h1, h2⟩ := ((C36_master_key H seed).2.2.1 k).1 h
  intro _
  rw [h1, h2]
  exact ⟨rfl, rfl⟩

theorem made_prv_root {H : Hashes} {k : XPrv} (h : MadePrv H k) :
    RootHasNoParent k.attrs.depth k.attrs.parentFingerprint.1 k.attrs.childNumber.n.toNat := by
  induction h with
  | new seed k h => exact new_root h
  | newFromPath seed path k h =>
    obtain ⟨l⟩ := path
    rcases l with _ | ⟨i, l⟩
    · exact new_root h
    · intro h0
      have := ((C33_depth H).2.2.2.2.2.2 seed k _ h).1
      rw [h0] at this
      simp [DerivationPath.len] at this
  | deriveChild k i c _ h _ =>
    intro h0
    have := (C33_depth H).1 k c i h
    rw [h0] at this
    simp at this
  | deriveFromPath k path c _ h ih => exact prv_path_root ih h

theorem made_prv_reach {H : Hashes} {k : XPrv} (h : MadePrv H k) : ReachPrv H k := by
  induction h with
  | new seed k h => exact .new seed k h
  | newFromPath seed path k h => exact .newFromPath seed path k h
  | deriveChild k i c _ h ih => exact .deriveChild k i c ih h
  | deriveFromPath k path c _ h ih => exact .deriveFromPath k path c ih h

theorem made_pub_reach {H : Hashes} {k : XPub} (h : MadePub H k) : ReachPub H k := by
  induction h with
  | publicKey k h => exact .publicKey k (made_prv_reach h)
  | deriveChild k i c _ h ih => exact .deriveChild k i c ih h
  | deriveFromPath k path c _ h ih => exact .deriveFromPath k path c ih h

theorem made_pub_root {H : Hashes} {k : XPub} (h : MadePub H k) :
    RootHasNoParent k.attrs.depth k.attrs.parentFingerprint.1 k.attrs.childNumber.n.toNat := by
  induction h with
  | publicKey k h => exact made_prv_root h
  | deriveChild k i c _ h _ =>
    intro h0
    have := (C33_depth H).2.1 k c i h
    rw [h0] at this
    simp at this
  | deriveFromPath k path c _ h ih => exact pub_path_root ih h

/-- Keys that were made here and not read from a text are valid when written with BIP32's versions. -/
theorem C134_made_keys_valid (H : Hashes) :
    (∀ k, MadePrv H k → ∀ p ∈ [Prefix.XPRV, .TPRV], ∃ s b, k.toString H p = .ok s ∧ Base58Check (sha256 H) s b ∧
      ValidPrivate b) ∧
    (∀ k, MadePub H k → ∀ p ∈ [Prefix.XPUB, .TPUB], ∃ s b, k.toString H p = .ok s ∧ Base58Check (sha256 H) s b ∧
      ValidPublic b) := by
  constructor
  · intro k hk p hp
    have hp' : p ∈ [Prefix.TPRV, .XPRV, .YPRV, .ZPRV] ∧ p.version.toNat ∈ privateVersions := by
      revert p; decide +kernel
    obtain ⟨s, h1, _⟩ := C38_xprv_round_trip H k p hp'.1
    refine ⟨s, _, h1, prv_payload h1, ?_⟩
    rw [validPrivate_iff p.version.isLt k.attrs.parentFingerprint.2 k.attrs.childNumber.n.isLt k.attrs.chainCode.2
      ⟨k.privateKey.pos, k.privateKey.lt⟩]
    exact ⟨hp'.2, made_prv_root hk⟩
  · intro k hk p hp
    have hp' : p ∈ [Prefix.TPUB, .XPUB, .YPUB, .ZPUB] ∧ p.version.toNat ∈ publicVersions := by
      revert p; decide +kernel
    have hr := made_pub_reach hk
    obtain ⟨Q, hQ⟩ := reach_pub H hr
    obtain ⟨s, h1, _⟩ := C39_xpub_round_trip H k p hp'.1 (.inl hr)
    refine ⟨s, _, h1, pub_payload hQ h1, ?_⟩
    rw [validPublic_iff p.version.isLt k.attrs.parentFingerprint.2 k.attrs.childNumber.n.isLt k.attrs.chainCode.2
      (coords_ne hQ)]
    exact ⟨hp'.2, made_pub_root hk⟩

-- a made key, its public key, and its text, which is that of a valid key and is read back
example : ∃ k, MadePrv (constHash 1) k ∧ MadePub (constHash 1) k.publicKey ∧ ∃ s b, Base58Check (sha256 (constHash 1)) s b ∧
    ValidPrivate b ∧ XPrv.fromStr (constHash 1) s = .ok k := by
  have h : ∃ k, XPrv.new (constHash 1) (List.replicate 16 0) = .ok k :=
    ⟨{ exKey with attrs := { exKey.attrs with chainCode := ⟨natBE 32 7, by simp⟩ } }, by decide +kernel⟩
  obtain ⟨k, hk⟩ := h
  have hm : MadePrv (constHash 1) k := .new _ _ hk
  obtain ⟨s, b, h1, h2, h3⟩ := (C134_made_keys_valid (constHash 1)).1 k hm .XPRV (by decide +kernel)
  obtain ⟨s', h4, h5⟩ := C38_xprv_round_trip (constHash 1) k .XPRV (by decide +kernel)
  rw [h1] at h4
  cases h4
  exact ⟨k, hm, .publicKey k hm, s, b, h2, h3, h5⟩

end Kms.Props
