import Verif.Props.KeyText
import Verif.Model.GenericKeys
/-
What the attributes of an extended key other than its chain code do to derivation (C135).
-/
namespace Kms.Props
open Kms.Bip32 Kms.Spec Kms.Spec.Bip32
open Kms.Spec.Secp (Point G n HasCoords)
open Kms.Secp (SecretKey)

theorem prv_child_same {H : Hashes} {k k' : XPrv} (h1 : k.privateKey = k'.privateKey)
    (h2 : k.attrs.chainCode = k'.attrs.chainCode) (h3 : k.attrs.depth = k'.attrs.depth) (i : ChildNumber) :
    k.deriveChild H i = k'.deriveChild H i := by
  rw [XPrv.deriveChild_eq, XPrv.deriveChild_eq]
  unfold XPrv.hmacInput
  rw [h1, h2, h3]

theorem pub_child_same {H : Hashes} {k k' : XPub} (h1 : k.publicKey = k'.publicKey)
    (h2 : k.attrs.chainCode = k'.attrs.chainCode) (h3 : k.attrs.depth = k'.attrs.depth) (i : ChildNumber) :
    k.deriveChild H i = k'.deriveChild H i := by
  rw [XPub.deriveChild_eq, XPub.deriveChild_eq]
  rw [h1, h2, h3]

theorem prv_path_cons (H : Hashes) (k : XPrv) (i : ChildNumber) (l : List ChildNumber) :
    k.deriveFromPath H ⟨i :: l⟩ = k.deriveChild H i >>= fun c => c.deriveFromPath H ⟨l⟩ := by
  unfold XPrv.deriveFromPath DerivationPath.iter
  rw [List.foldl_cons, foldl_bind]
  rfl

theorem pub_path_cons (H : Hashes) (k : XPub) (i : ChildNumber) (l : List ChildNumber) :
    k.deriveFromPath H ⟨i :: l⟩ = k.deriveChild H i >>= fun c => c.deriveFromPath H ⟨l⟩ := by
  unfold XPub.deriveFromPath DerivationPath.iter
  rw [List.foldl_cons, foldl_bind]
  rfl

theorem checkedSucc_of_lt {d : UInt8} (h : d.toNat < 255) : ∃ e : UInt8, checkedSucc d = some e ∧ e.toNat = d.toNat + 1 := by
  rcases checkedSucc_cases d with ⟨_, h1, h2⟩ | ⟨h1, _⟩
  · exact ⟨_, h1, h2⟩
  · omega

/-- One step from a key with the same key and chain code at another depth. -/
theorem prv_child_shift {H : Hashes} {k k' c : XPrv} (h1 : k.privateKey = k'.privateKey)
    (h2 : k.attrs.chainCode = k'.attrs.chainCode) {i : ChildNumber} (h : k.deriveChild H i = .ok c)
    (hd : k'.attrs.depth.toNat < 255) :
    ∃ d : UInt8, d.toNat = k'.attrs.depth.toNat + 1 ∧
      k'.deriveChild H i = .ok { c with attrs := { c.attrs with depth := d } } := by
  obtain ⟨d, hd1, hd2⟩ := checkedSucc_of_lt hd
  refine ⟨d, hd2, ?_⟩
  rw [XPrv.deriveChild_eq] at h ⊢
  unfold XPrv.hmacInput at h ⊢
  rw [← h1, ← h2, hd1]
  rw [Res.bind_eq_ok] at h
  obtain ⟨_, _, h⟩ := h
  rw [Res.bind_eq_ok] at h
  obtain ⟨s, hs, h⟩ := h
  cases h
  rw [hs]
  rfl

theorem pub_child_shift {H : Hashes} {k k' c : XPub} (h1 : k.publicKey = k'.publicKey)
    (h2 : k.attrs.chainCode = k'.attrs.chainCode) {i : ChildNumber} (h : k.deriveChild H i = .ok c)
    (hd : k'.attrs.depth.toNat < 255) :
    ∃ d : UInt8, d.toNat = k'.attrs.depth.toNat + 1 ∧
      k'.deriveChild H i = .ok { c with attrs := { c.attrs with depth := d } } := by
  obtain ⟨d, hd1, hd2⟩ := checkedSucc_of_lt hd
  refine ⟨d, hd2, ?_⟩
  rw [XPub.deriveChild_eq] at h ⊢
  rw [← h1, ← h2, hd1]
  by_cases hi : i.isHardened = true
  · rw [if_pos hi] at h
    cases h
  rw [if_neg hi] at h ⊢
  rw [Res.bind_eq_ok] at h
  obtain ⟨_, _, h⟩ := h
  rw [Res.bind_eq_ok] at h
  obtain ⟨s, hs, h⟩ := h
  cases h
  rw [hs]
  rfl

/-- C135. What is derived depends on the key, the chain code and the depth only: not on the parent fingerprint, not on
the child number (which may be those of any key, as in C134), and not on the version that the key's text was read
with. -/
theorem C135_key_chain_code_depth (H : Hashes) :
    (∀ k k' : XPrv, k.privateKey = k'.privateKey → k.attrs.chainCode = k'.attrs.chainCode →
      k.attrs.depth = k'.attrs.depth → (∀ i, k.deriveChild H i = k'.deriveChild H i) ∧
      ∀ path : DerivationPath, path.len ≠ 0 → k.deriveFromPath H path = k'.deriveFromPath H path) ∧
    (∀ k k' : XPub, k.publicKey = k'.publicKey → k.attrs.chainCode = k'.attrs.chainCode →
      k.attrs.depth = k'.attrs.depth → (∀ i, k.deriveChild H i = k'.deriveChild H i) ∧
      ∀ path : DerivationPath, path.len ≠ 0 → k.deriveFromPath H path = k'.deriveFromPath H path) ∧
    (∀ (k : XPrv) (p p' : Prefix), p ∈ [Prefix.TPRV, .XPRV, .YPRV, .ZPRV] → p' ∈ [Prefix.TPRV, .XPRV, .YPRV, .ZPRV] →
      ∀ s s', k.toString H p = .ok s → k.toString H p' = .ok s' → XPrv.fromStr H s = XPrv.fromStr H s') ∧
    (∀ (k : XPub) (p p' : Prefix), ReachPub H k → p ∈ [Prefix.TPUB, .XPUB, .YPUB, .ZPUB] →
      p' ∈ [Prefix.TPUB, .XPUB, .YPUB, .ZPUB] →
      ∀ s s', k.toString H p = .ok s → k.toString H p' = .ok s' → XPub.fromStr H s = XPub.fromStr H s') := by
  refine ⟨?_, ?_, ?_, ?_⟩
  · rintro k k' h1 h2 h3
    refine ⟨prv_child_same h1 h2 h3, ?_⟩
    rintro ⟨_ | ⟨i, l⟩⟩ hl
    · exact absurd rfl hl
    · rw [prv_path_cons, prv_path_cons, prv_child_same h1 h2 h3]
  · rintro k k' h1 h2 h3
    refine ⟨pub_child_same h1 h2 h3, ?_⟩
    rintro ⟨_ | ⟨i, l⟩⟩ hl
    · exact absurd rfl hl
    · rw [pub_path_cons, pub_path_cons, pub_child_same h1 h2 h3]
  · intro k p p' hp hp' s s' hs hs'
    obtain ⟨t, h1, h2⟩ := C38_xprv_round_trip H k p hp
    obtain ⟨t', h1', h2'⟩ := C38_xprv_round_trip H k p' hp'
    rw [hs] at h1
    rw [hs'] at h1'
    cases h1
    cases h1'
    rw [h2, h2']
  · intro k p p' hk hp hp' s s' hs hs'
    obtain ⟨t, h1, h2⟩ := C39_xpub_round_trip H k p hp (.inl hk)
    obtain ⟨t', h1', h2'⟩ := C39_xpub_round_trip H k p' hp' (.inl hk)
    rw [hs] at h1
    rw [hs'] at h1'
    cases h1
    cases h1'
    rw [h2, h2']

/-- C135. The depth shifts the depths of what is derived and nothing else, as long as it does not reach 256: two holders
of the same key and chain code derive the same keys, chain codes, fingerprints and child numbers. -/
theorem C135_depth_shifts (H : Hashes) :
    (∀ (k k' c : XPrv) (path : DerivationPath), k.privateKey = k'.privateKey → k.attrs.chainCode = k'.attrs.chainCode →
      k.deriveFromPath H path = .ok c → k'.attrs.depth.toNat + path.len ≤ 255 →
      ∃ c', k'.deriveFromPath H path = .ok c' ∧ c'.privateKey = c.privateKey ∧ c'.attrs.chainCode = c.attrs.chainCode ∧
        c'.attrs.depth.toNat = k'.attrs.depth.toNat + path.len ∧
        (path.len ≠ 0 → c'.attrs.parentFingerprint = c.attrs.parentFingerprint ∧
          c'.attrs.childNumber = c.attrs.childNumber)) ∧
    (∀ (k k' c : XPub) (path : DerivationPath), k.publicKey = k'.publicKey → k.attrs.chainCode = k'.attrs.chainCode →
      k.deriveFromPath H path = .ok c → k'.attrs.depth.toNat + path.len ≤ 255 →
      ∃ c', k'.deriveFromPath H path = .ok c' ∧ c'.publicKey = c.publicKey ∧ c'.attrs.chainCode = c.attrs.chainCode ∧
        c'.attrs.depth.toNat = k'.attrs.depth.toNat + path.len ∧
        (path.len ≠ 0 → c'.attrs.parentFingerprint = c.attrs.parentFingerprint ∧
          c'.attrs.childNumber = c.attrs.childNumber)) := by
  constructor
  · rintro k k' c ⟨l⟩
    induction l generalizing k k' with
    | nil =>
      rintro h1 h2 h3 _
      cases h3
      exact ⟨k', rfl, h1.symm, h2.symm, rfl, fun h => absurd rfl h⟩
    | cons i l ih =>
      intro h1 h2 h3 h4
      rw [prv_path_cons, Res.bind_eq_ok] at h3
      obtain ⟨m, hm, h3⟩ := h3
      have hlen : (⟨i :: l⟩ : DerivationPath).len = (⟨l⟩ : DerivationPath).len + 1 := rfl
      rw [hlen] at h4 ⊢
      obtain ⟨d, hd, hm'⟩ := prv_child_shift h1 h2 hm (by omega)
      obtain ⟨c', e1, e2, e3, e4, e5⟩ := ih m { m with attrs := { m.attrs with depth := d } } rfl rfl h3
        (by show d.toNat + _ ≤ 255; omega)
      refine ⟨c', by rw [prv_path_cons, hm']; exact e1, e2, e3, ?_, fun _ => ?_⟩
      · rw [e4]
        show d.toNat + _ = _
        omega
      · rcases l with _ | ⟨j, l⟩
        · cases h3
          cases e1
          exact ⟨rfl, rfl⟩
        · exact e5 (by simp [DerivationPath.len])
  · rintro k k' c ⟨l⟩
    induction l generalizing k k' with
    | nil =>
      rintro h1 h2 h3 _
      cases h3
      exact ⟨k', rfl, h1.symm, h2.symm, rfl, fun h => absurd rfl h⟩
    | cons i l ih =>
      intro h1 h2 h3 h4
      rw [pub_path_cons, Res.bind_eq_ok] at h3
      obtain ⟨m, hm, h3⟩ := h3
      have hlen : (⟨i :: l⟩ : DerivationPath).len = (⟨l⟩ : DerivationPath).len + 1 := rfl
      rw [hlen] at h4 ⊢
      obtain ⟨d, hd, hm'⟩ := pub_child_shift h1 h2 hm (by omega)
      obtain ⟨c', e1, e2, e3, e4, e5⟩ := ih m { m with attrs := { m.attrs with depth := d } } rfl rfl h3
        (by show d.toNat + _ ≤ 255; omega)
      refine ⟨c', by rw [pub_path_cons, hm']; exact e1, e2, e3, ?_, fun _ => ?_⟩
      · rw [e4]
        show d.toNat + _ = _
        omega
      · rcases l with _ | ⟨j, l⟩
        · cases h3
          cases e1
          exact ⟨rfl, rfl⟩
        · exact e5 (by simp [DerivationPath.len])

theorem gprv_path_cons {K : KeyImpl} (H : Hashes) (k : GPrv K) (i : ChildNumber) (l : List ChildNumber) :
    k.deriveFromPath H ⟨i :: l⟩ = k.deriveChild H i >>= fun c => c.deriveFromPath H ⟨l⟩ := by
  unfold GPrv.deriveFromPath DerivationPath.iter
  rw [List.foldl_cons, foldl_bind]
  rfl

theorem gpub_path_cons {K : KeyImpl} (H : Hashes) (k : GPub K) (i : ChildNumber) (l : List ChildNumber) :
    k.deriveFromPath H ⟨i :: l⟩ = k.deriveChild H i >>= fun c => c.deriveFromPath H ⟨l⟩ := by
  unfold GPub.deriveFromPath DerivationPath.iter
  rw [List.foldl_cons, foldl_bind]
  rfl

/-- C135 over any implementation of the key traits, whatever its methods do: the result, error or panic is the same. -/
theorem C135_any_key_type (K : KeyImpl) (H : Hashes) :
    (∀ k k' : GPrv K, k.privateKey = k'.privateKey → k.attrs.chainCode = k'.attrs.chainCode →
      k.attrs.depth = k'.attrs.depth → (∀ i, k.deriveChild H i = k'.deriveChild H i) ∧
      ∀ path : DerivationPath, path.len ≠ 0 → k.deriveFromPath H path = k'.deriveFromPath H path) ∧
    (∀ k k' : GPub K, k.publicKey = k'.publicKey → k.attrs.chainCode = k'.attrs.chainCode →
      k.attrs.depth = k'.attrs.depth → (∀ i, k.deriveChild H i = k'.deriveChild H i) ∧
      ∀ path : DerivationPath, path.len ≠ 0 → k.deriveFromPath H path = k'.deriveFromPath H path) := by
  constructor
  · rintro k k' h1 h2 h3
    have h : ∀ i, k.deriveChild H i = k'.deriveChild H i := by
      intro i
      unfold GPrv.deriveChild GPrv.hmacInput
      rw [h1, h2, h3]
    refine ⟨h, ?_⟩
    rintro ⟨_ | ⟨i, l⟩⟩ hl
    · exact absurd rfl hl
    · rw [gprv_path_cons, gprv_path_cons, h]
  · rintro k k' h1 h2 h3
    have h : ∀ i, k.deriveChild H i = k'.deriveChild H i := by
      intro i
      unfold GPub.deriveChild
      rw [h1, h2, h3]
    refine ⟨h, ?_⟩
    rintro ⟨_ | ⟨i, l⟩⟩ hl
    · exact absurd rfl hl
    · rw [gpub_path_cons, gpub_path_cons, h]

-- the master key read with another parent and child number, and one at depth 200: the same child
example : ∃ c d, exKey.deriveFromPath (constHash 1) ⟨[⟨2 ^ 31⟩, ⟨1⟩]⟩ = .ok c ∧
    (XPrv.mk exKey.privateKey ⟨0, ⟨[1, 2, 3, 4], rfl⟩, ⟨9⟩, exKey.attrs.chainCode⟩).deriveFromPath (constHash 1)
      ⟨[⟨2 ^ 31⟩, ⟨1⟩]⟩ = .ok c ∧
    (XPrv.mk exKey.privateKey ⟨200, ⟨[1, 2, 3, 4], rfl⟩, ⟨9⟩, exKey.attrs.chainCode⟩).deriveFromPath (constHash 1)
      ⟨[⟨2 ^ 31⟩, ⟨1⟩]⟩ = .ok d ∧ d.privateKey.k = 3 ∧ d.privateKey = c.privateKey ∧ d.attrs.depth = 202 :=
  ⟨⟨⟨3, by decide, by decide⟩, ⟨2, zeroArr 4, ⟨1⟩, ⟨natBE 32 7, by simp⟩⟩⟩,
    ⟨⟨3, by decide, by decide⟩, ⟨202, zeroArr 4, ⟨1⟩, ⟨natBE 32 7, by simp⟩⟩⟩, by decide +kernel⟩

end Kms.Props
