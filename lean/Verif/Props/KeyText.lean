import Verif.Props.ExtendedKey
import Verif.Props.DerivationMore
import Verif.Model.Debug
/-
Properties C38, C39, C44, C45, C48, C54, C59, C60: extended private and public keys as text.
-/
namespace Kms.Props
open Kms.Bip32 Kms.Spec Kms.Spec.Bip32
open Kms.Spec.Secp (Point G n HasCoords)
open Kms.Secp (SecretKey)

/-! ### conversion from `ExtendedKey` -/

/-- The outcome of `try_from` on every extended key. -/
theorem xprv_tryFrom_cases (e : ExtendedKey) :
    (∃ k, XPrv.tryFrom e = .ok k ∧ e.pfx.isPrivate = true ∧ e.attrs = k.attrs ∧ e.keyBytes.1 = 0 :: k.toBytes.1) ∨
    (XPrv.tryFrom e = .err .crypto ∧ (e.pfx.isPrivate = true → ∀ k : XPrv, e.keyBytes.1 ≠ 0 :: k.toBytes.1)) := by
  obtain ⟨pfx, attrs, ⟨kb, hkb⟩⟩ := e
  rcases kb with _ | ⟨x, xs⟩
  · cases hkb
  have hxs : xs.length = 32 := by simpa using hkb
  unfold XPrv.tryFrom
  simp only [List.headD_cons, List.drop_one, List.tail_cons, tryIntoArr_ok hxs, Res.ok_bind]
  by_cases hc : (pfx.isPrivate && x == 0) = true
  · rw [if_pos hc]
    rw [Bool.and_eq_true, beq_iff_eq] at hc
    obtain ⟨hp, rfl⟩ := hc
    unfold PrivateKey.fromBytes
    rcases SecretKey.parse_cases ⟨xs, hxs⟩ with ⟨s, h1, h2, _⟩ | ⟨h1, h2⟩
    · rw [h1]
      refine .inl ⟨⟨s, attrs⟩, rfl, hp, rfl, ?_⟩
      congr 1
      exact (congrArg Subtype.val h2).symm
    · rw [h1]
      refine .inr ⟨rfl, fun _ k hk => ?_⟩
      have e1 : xs = k.toBytes.1 := by injection hk
      have e2 : (⟨xs, hxs⟩ : ByteArr 32) = k.privateKey.serialize := Subtype.ext e1
      rw [e2, k.privateKey.parse_serialize] at h1
      cases h1
  · rw [if_neg hc]
    refine .inr ⟨rfl, fun hp k hk => ?_⟩
    injection hk with hx _
    rw [hp, hx] at hc
    exact hc rfl

theorem xpub_tryFrom_cases (e : ExtendedKey) :
    (∃ k, XPub.tryFrom e = .ok k ∧ e.pfx.isPublic = true ∧ e.attrs = k.attrs ∧
      (∃ Q, HasCoords Q k.publicKey.x k.publicKey.y) ∧ e.keyBytes = k.toBytes) ∨
    (XPub.tryFrom e = .err .crypto ∧ (e.pfx.isPublic = true → ∀ k : XPub, 
      (∃ Q, HasCoords Q k.publicKey.x k.publicKey.y) → e.keyBytes ≠ k.toBytes)) := by
  unfold XPub.tryFrom
  by_cases hp : e.pfx.isPublic = true
  · rw [if_pos hp]
    rcases C50_compressed_keys.2.2.2 e.keyBytes with ⟨P, hP⟩ | hP
    · rw [hP]
      obtain ⟨h1, h2⟩ := C50_compressed_keys.2.1 _ _ hP
      exact .inl ⟨⟨P, e.attrs⟩, rfl, hp, rfl, h2, h1.symm⟩
    · rw [hP]
      refine .inr ⟨rfl, fun _ k ⟨Q, hQ⟩ hk => ?_⟩
      have := (C50_compressed_keys.1 _ Q hQ).2
      rw [show PublicKey.toBytes k.publicKey = e.keyBytes from hk.symm, hP] at this
      cases this
  · rw [if_neg hp]
    exact .inr ⟨rfl, fun h => absurd h hp⟩

theorem xprv_tryFrom_toExtendedKey (k : XPrv) {p : Prefix} (hp : p.isPrivate = true) :
    XPrv.tryFrom (k.toExtendedKey p) = .ok k := by
  rcases xprv_tryFrom_cases (k.toExtendedKey p) with ⟨k', h1, _, h3, h4⟩ | ⟨_, h⟩
  · rw [h1]
    congr 1
    have e1 : k.toBytes = k'.toBytes := by
      apply Subtype.ext
      injection h4
    have e2 := SecretKey.serialize_inj (s := k.privateKey) (t := k'.privateKey) e1
    cases k; cases k'
    cases e2
    cases h3
    rfl
  · exact absurd rfl (h hp k)

theorem xpub_tryFrom_toExtendedKey (k : XPub) {p : Prefix} (hp : p.isPublic = true)
    (hk : ∃ Q, HasCoords Q k.publicKey.x k.publicKey.y) : XPub.tryFrom (k.toExtendedKey p) = .ok k := by
  rcases xpub_tryFrom_cases (k.toExtendedKey p) with ⟨k', h1, _, h3, h4, h5⟩ | ⟨_, h⟩
  · rw [h1]
    congr 1
    obtain ⟨Q, hQ⟩ := hk
    obtain ⟨R, hR⟩ := h4
    have e2 := Secp.PublicKey.serialize_inj (Secp.valid_of_rep (Secp.rep_coords.2 hQ))
      (Secp.valid_of_rep (Secp.rep_coords.2 hR)) h5
    cases k; cases k'
    cases e2
    cases h3
    rfl
  · exact absurd rfl (h hp k hk)

/-! ### round trips -/

theorem priv_const {p : Prefix} (h : p ∈ [Prefix.TPRV, .XPRV, .YPRV, .ZPRV]) :
    p ∈ [Prefix.TPRV, .TPUB, .XPRV, .XPUB, .YPRV, .YPUB, .ZPRV, .ZPUB] ∧ p.isPrivate = true ∧ p.isPublic = false := by
  revert p
  decide +kernel

theorem pub_const {p : Prefix} (h : p ∈ [Prefix.TPUB, .XPUB, .YPUB, .ZPUB]) :
    p ∈ [Prefix.TPRV, .TPUB, .XPRV, .XPUB, .YPRV, .YPUB, .ZPRV, .ZPUB] ∧ p.isPrivate = false ∧ p.isPublic = true := by
  revert p
  decide +kernel

/-- C38. The text of an extended private key, with any of the four private prefixes, exists and parses back to the same
private key and attributes. -/
theorem C38_xprv_round_trip (H : Hashes) (k : XPrv) (p : Prefix) (hp : p ∈ [Prefix.TPRV, .XPRV, .YPRV, .ZPRV]) :
    ∃ s, k.toString H p = .ok s ∧ XPrv.fromStr H s = .ok k := by
  obtain ⟨h1, h2, _⟩ := priv_const hp
  obtain ⟨s, hs, hf⟩ := (C47_version_determines_prefix_partial H (k.toExtendedKey p)).1 h1
  refine ⟨s, hs, ?_⟩
  unfold XPrv.fromStr
  rw [hf]
  exact xprv_tryFrom_toExtendedKey k h2

example (H : Hashes) : ∃ s, exKey.toString H .YPRV = .ok s ∧ XPrv.fromStr H s = .ok exKey :=
  C38_xprv_round_trip H exKey .YPRV (by decide +kernel)

/-- C39. The same for extended public keys, for every key that is a point of the curve (by C37, all that can be
obtained). -/
theorem C39_xpub_round_trip (H : Hashes) (k : XPub) (p : Prefix) (hp : p ∈ [Prefix.TPUB, .XPUB, .YPUB, .ZPUB])
    (hk : ReachPub H k ∨ ∃ Q, HasCoords Q k.publicKey.x k.publicKey.y) :
    ∃ s, k.toString H p = .ok s ∧ XPub.fromStr H s = .ok k := by
  have hk' : ∃ Q, HasCoords Q k.publicKey.x k.publicKey.y := hk.elim (reach_pub H) id
  obtain ⟨h1, _, h2⟩ := pub_const hp
  obtain ⟨s, hs, hf⟩ := (C47_version_determines_prefix_partial H (k.toExtendedKey p)).1 h1
  refine ⟨s, hs, ?_⟩
  unfold XPub.fromStr
  rw [hf]
  exact xpub_tryFrom_toExtendedKey k h2 hk'

/-- Every extended private key can be obtained, by parsing its text. -/
theorem xprv_reachable (H : Hashes) (k : XPrv) : ReachPrv H k := by
  obtain ⟨s, _, h⟩ := C38_xprv_round_trip H k .XPRV (by decide +kernel)
  exact .fromStr s k h

/-- C39 is not vacuous: the public key of any private key. -/
example (H : Hashes) : ∃ s, exKey.publicKey.toString H .XPUB = .ok s ∧ XPub.fromStr H s = .ok exKey.publicKey :=
  C39_xpub_round_trip H _ _ (by decide +kernel) (.inl (.publicKey _ (xprv_reachable H exKey)))

/-! ### acceptance -/

theorem layout_serialize (k : ExtendedKey) : k.serialize = layout k.pfx.version.toNat k.attrs.depth
    k.attrs.parentFingerprint.1 k.attrs.childNumber.n.toNat k.attrs.chainCode.1 k.keyBytes.1 := by
  unfold layout
  rw [← be4_eq, ← be4_eq]
  rfl

/-- The letters of a parsed key, as the characters of its text. -/
theorem letters_eq {s : Str} (hl : ∀ c ∈ s.take 4, Letter c) (h4 : (s.take 4).length = 4) (t : Str) (ht : ∀ c ∈ t, Letter c) :
    (((s.take 4).map (fun c => UInt8.ofNat c.toNat)).drop 1 = t.map (fun c => UInt8.ofNat c.toNat)) ↔
      ∃ c, Letter c ∧ s.take 4 = c :: t := by
  rcases hs : s.take 4 with _ | ⟨c, r⟩
  · rw [hs] at h4; cases h4
  rw [hs] at hl
  have hr : ∀ c ∈ r, Letter c := fun c h => hl c (List.mem_cons_of_mem _ h)
  simp only [List.map_cons, List.drop_one, List.tail_cons, List.cons.injEq]
  constructor
  · intro h
    refine ⟨c, hl c (by simp), rfl, ?_⟩
    have := congrArg asciiStr h
    rw [asciiStr_map (fun c h => letter_ascii (hr c h)), asciiStr_map (fun c h => letter_ascii (ht c h))] at this
    exact Option.some.inj this
  · rintro ⟨d, _, _, rfl⟩
    rfl

theorem text_take4 {H : Hashes} {s : Str} {b : Bytes} (hb : b.length = 78) (h : Base58Check (sha256 H) s b) :
    (s.take 4).length = 4 := by
  have h1 := text_length_ge (b ++ (sha256 H (sha256 H b)).take 4)
  rw [show Base58.text (b ++ (sha256 H (sha256 H b)).take 4) = s from (Base58.text_of h).symm, List.length_append, hb] at h1
  rw [List.length_take]
  omega

theorem isPrivate_iff {H : Hashes} {s : Str} {e : ExtendedKey} (h : ExtendedKey.fromStr H s = .ok e) :
    e.pfx.isPrivate = true ↔ ∃ c, Letter c ∧ s.take 4 = [c, 'p', 'r', 'v'] := by
  obtain ⟨h1, h2, h3⟩ := (ExtendedKey.fromStr_iff H s e).1 h
  rw [← letters_eq h2 (text_take4 (ExtendedKey.serialize_length e) h1) ['p', 'r', 'v'] (by unfold Letter; decide)]
  unfold Prefix.isPrivate
  rw [beq_iff_eq, h3]
  rfl

theorem isPublic_iff {H : Hashes} {s : Str} {e : ExtendedKey} (h : ExtendedKey.fromStr H s = .ok e) :
    e.pfx.isPublic = true ↔ ∃ c, Letter c ∧ s.take 4 = [c, 'p', 'u', 'b'] := by
  obtain ⟨h1, h2, h3⟩ := (ExtendedKey.fromStr_iff H s e).1 h
  rw [← letters_eq h2 (text_take4 (ExtendedKey.serialize_length e) h1) ['p', 'u', 'b'] (by unfold Letter; decide)]
  unfold Prefix.isPublic
  rw [beq_iff_eq, h3]
  rfl

/-- The key read from a text, given its letters and its payload. -/
theorem fromStr_of_layout {H : Hashes} {s : Str} {v : Nat} {a : ExtendedKeyAttrs} {kb : ByteArr 33} (hv : v < 2 ^ 32)
    (h : Base58Check (sha256 H) s (layout v a.depth a.parentFingerprint.1 a.childNumber.n.toNat a.chainCode.1 kb.1))
    (hl : ∀ c ∈ s.take 4, Letter c) :
    ∃ p : Prefix, p.version.toNat = v ∧ ExtendedKey.fromStr H s = .ok ⟨p, a, kb⟩ := by
  have hvn : (BitVec.ofNat 32 v).toNat = v := by rw [BitVec.toNat_ofNat]; exact Nat.mod_eq_of_lt hv
  have hlen : (layout v a.depth a.parentFingerprint.1 a.childNumber.n.toNat a.chainCode.1 kb.1).length = 78 := by
    have := ExtendedKey.serialize_length ⟨⟨zeroArr 4, BitVec.ofNat 32 v⟩, a, kb⟩
    rw [layout_serialize] at this
    simpa only [hvn] using this
  have h4 := text_take4 hlen h
  have hm : ((s.take 4).map (fun c => UInt8.ofNat c.toNat)).length = 4 := by rw [List.length_map]; exact h4
  refine ⟨⟨⟨_, hm⟩, BitVec.ofNat 32 v⟩, hvn, (ExtendedKey.fromStr_iff H s _).2 ⟨?_, hl, rfl⟩⟩
  rw [layout_serialize]
  simp only [hvn]
  exact h

/-- C59. A string parses as the extended private key `k` exactly when it is the Base58Check text of a BIP32 payload,
with some version, the attributes of `k` and the key bytes `0 || ser256(k)`, and it starts with one letter and `prv`.
Everything else is an error: `Crypto` if `ExtendedKey` parses it, and the error of that parser if not; never a panic. -/
theorem C59_xprv_acceptance (H : Hashes) (s : Str) :
    (∀ k, XPrv.fromStr H s = .ok k ↔
      (∃ v < 2 ^ 32, Base58Check (sha256 H) s (layout v k.attrs.depth k.attrs.parentFingerprint.1
        k.attrs.childNumber.n.toNat k.attrs.chainCode.1 (0 :: ser256 k.privateKey.k))) ∧
      ∃ c, Letter c ∧ s.take 4 = [c, 'p', 'r', 'v']) ∧
    XPrv.fromStr H s ≠ .panic ∧
    (∀ e, XPrv.fromStr H s = .err e →
      (e = .crypto ∧ ∃ k, ExtendedKey.fromStr H s = .ok k) ∨ ExtendedKey.fromStr H s = .err e) := by
  refine ⟨fun k => ⟨?_, ?_⟩, ?_, ?_⟩
  · intro h
    unfold XPrv.fromStr at h
    rw [Res.bind_eq_ok] at h
    obtain ⟨e, he, h⟩ := h
    rcases xprv_tryFrom_cases e with ⟨k', h1, h2, h3, h4⟩ | ⟨h1, _⟩
    · rw [h1] at h
      cases h
      have := ((ExtendedKey.fromStr_iff H s e).1 he).1
      rw [layout_serialize, h3, h4] at this
      rw [ser256_eq]
      exact ⟨⟨_, e.pfx.version.isLt, this⟩, (isPrivate_iff he).1 h2⟩
    · rw [h1] at h
      cases h
  · rintro ⟨⟨v, hv, hb⟩, c, hc, hs⟩
    rw [ser256_eq] at hb
    have hb' := fromStr_of_layout (kb := ⟨0 :: k.toBytes.1, by simp [k.toBytes.2]⟩) hv hb
      (by rw [hs]; intro d hd; simp only [List.mem_cons, List.not_mem_nil, or_false] at hd
          rcases hd with rfl | rfl | rfl | rfl
          · exact hc
          all_goals (unfold Letter; decide))
    obtain ⟨p, _, hp⟩ := hb'
    unfold XPrv.fromStr
    rw [hp]
    exact xprv_tryFrom_toExtendedKey (p := p) k ((isPrivate_iff hp).2 ⟨c, hc, hs⟩)
  · unfold XPrv.fromStr
    rcases h : ExtendedKey.fromStr H s with k | e | _
    · rcases xprv_tryFrom_cases k with ⟨k', h1, _⟩ | ⟨h1, _⟩ <;> rw [Res.ok_bind, h1] <;> simp
    · simp
    · exact absurd h (C43_from_str_exact H s).2.2.1
  · intro e
    unfold XPrv.fromStr
    rcases h : ExtendedKey.fromStr H s with k | e' | _
    · rcases xprv_tryFrom_cases k with ⟨k', h1, _⟩ | ⟨h1, _⟩ <;> rw [Res.ok_bind, h1]
      · simp
      · intro h'
        cases h'
        exact .inl ⟨rfl, k, rfl⟩
    · intro h'
      cases h'
      exact .inr rfl
    · simp

-- some string is accepted, some is not
example (H : Hashes) : (∃ s, XPrv.fromStr H s = .ok exKey) ∧ XPrv.fromStr H "xprv0".toList = .err .base58 := by
  refine ⟨?_, rfl⟩
  obtain ⟨s, _, h⟩ := C38_xprv_round_trip H exKey .XPRV (by decide +kernel)
  exact ⟨s, h⟩

/-- C60. A string parses as the extended public key `k` exactly when `k` is a point `Q` of the curve, the string is the
Base58Check text of a BIP32 payload with some version, the attributes of `k` and the key bytes `serP(Q)`, and it starts
with one letter and `pub`.  Everything else is an error, as in C59. -/
theorem C60_xpub_acceptance (H : Hashes) (s : Str) :
    (∀ k, XPub.fromStr H s = .ok k ↔
      (∃ v < 2 ^ 32, ∃ Q, HasCoords Q k.publicKey.x k.publicKey.y ∧
        Base58Check (sha256 H) s (layout v k.attrs.depth k.attrs.parentFingerprint.1
          k.attrs.childNumber.n.toNat k.attrs.chainCode.1 (serP Q))) ∧
      ∃ c, Letter c ∧ s.take 4 = [c, 'p', 'u', 'b']) ∧
    XPub.fromStr H s ≠ .panic ∧
    (∀ e, XPub.fromStr H s = .err e →
      (e = .crypto ∧ ∃ k, ExtendedKey.fromStr H s = .ok k) ∨ ExtendedKey.fromStr H s = .err e) := by
  refine ⟨fun k => ⟨?_, ?_⟩, ?_, ?_⟩
  · intro h
    unfold XPub.fromStr at h
    rw [Res.bind_eq_ok] at h
    obtain ⟨e, he, h⟩ := h
    rcases xpub_tryFrom_cases e with ⟨k', h1, h2, h3, ⟨Q, hQ⟩, h4⟩ | ⟨h1, _⟩
    · rw [h1] at h
      cases h
      have := ((ExtendedKey.fromStr_iff H s e).1 he).1
      rw [layout_serialize, h3, h4, show k.toBytes.1 = serP Q from (C50_compressed_keys.1 _ Q hQ).1] at this
      exact ⟨⟨_, e.pfx.version.isLt, Q, hQ, this⟩, (isPublic_iff he).1 h2⟩
    · rw [h1] at h
      cases h
  · rintro ⟨⟨v, hv, Q, hQ, hb⟩, c, hc, hs⟩
    rw [← show k.toBytes.1 = serP Q from (C50_compressed_keys.1 _ Q hQ).1] at hb
    have hb' := fromStr_of_layout (kb := k.toBytes) hv hb
      (by rw [hs]; intro d hd; simp only [List.mem_cons, List.not_mem_nil, or_false] at hd
          rcases hd with rfl | rfl | rfl | rfl
          · exact hc
          all_goals (unfold Letter; decide))
    obtain ⟨p, _, hp⟩ := hb'
    unfold XPub.fromStr
    rw [hp]
    exact xpub_tryFrom_toExtendedKey (p := p) k ((isPublic_iff hp).2 ⟨c, hc, hs⟩) ⟨Q, hQ⟩
  · unfold XPub.fromStr
    rcases h : ExtendedKey.fromStr H s with k | e | _
    · rcases xpub_tryFrom_cases k with ⟨k', h1, _⟩ | ⟨h1, _⟩ <;> rw [Res.ok_bind, h1] <;> simp
    · simp
    · exact absurd h (C43_from_str_exact H s).2.2.1
  · intro e
    unfold XPub.fromStr
    rcases h : ExtendedKey.fromStr H s with k | e' | _
    · rcases xpub_tryFrom_cases k with ⟨k', h1, _⟩ | ⟨h1, _⟩ <;> rw [Res.ok_bind, h1]
      · simp
      · intro h'
        cases h'
        exact .inl ⟨rfl, k, rfl⟩
    · intro h'
      cases h'
      exact .inr rfl
    · simp

-- some string is accepted, some is not
example (H : Hashes) : (∃ s, XPub.fromStr H s = .ok exKey.publicKey) ∧ XPub.fromStr H "xpub0".toList = .err .base58 := by
  refine ⟨?_, rfl⟩
  obtain ⟨s, _, h⟩ := C39_xpub_round_trip H exKey.publicKey .XPUB (by decide +kernel)
    (.inl (.publicKey _ (xprv_reachable H exKey)))
  exact ⟨s, h⟩

/-- C44. No string parses both as an extended private key and as an extended public key.  A private key written with a
public prefix parses as neither (both parsers answer `Crypto`), and so does a public key written with a private one. -/
theorem C44_private_public_separate (H : Hashes) :
    (∀ s k k', ¬ (XPrv.fromStr H s = .ok k ∧ XPub.fromStr H s = .ok k')) ∧
    (∀ (k : XPrv) p, p ∈ [Prefix.TPUB, .XPUB, .YPUB, .ZPUB] → ∃ s, k.toString H p = .ok s ∧
      XPrv.fromStr H s = .err .crypto ∧ XPub.fromStr H s = .err .crypto) ∧
    (∀ (k : XPub) p, p ∈ [Prefix.TPRV, .XPRV, .YPRV, .ZPRV] → ∃ s, k.toString H p = .ok s ∧
      XPrv.fromStr H s = .err .crypto ∧ XPub.fromStr H s = .err .crypto) := by
  refine ⟨?_, ?_, ?_⟩
  · rintro s k k' ⟨h1, h2⟩
    obtain ⟨_, c, _, hc⟩ := ((C59_xprv_acceptance H s).1 k).1 h1
    obtain ⟨_, d, _, hd⟩ := ((C60_xpub_acceptance H s).1 k').1 h2
    rw [hc] at hd
    simp at hd
  · intro k p hp
    obtain ⟨h1, h2, h3⟩ := pub_const hp
    obtain ⟨s, hs, hf⟩ := (C47_version_determines_prefix_partial H (k.toExtendedKey p)).1 h1
    refine ⟨s, hs, ?_, ?_⟩
    · unfold XPrv.fromStr
      rw [hf, Res.ok_bind]
      rcases xprv_tryFrom_cases (k.toExtendedKey p) with ⟨k', _, h, _⟩ | ⟨h, _⟩
      · rw [show (k.toExtendedKey p).pfx = p from rfl, h2] at h; cases h
      · exact h
    · unfold XPub.fromStr
      rw [hf, Res.ok_bind]
      rcases xpub_tryFrom_cases (k.toExtendedKey p) with ⟨k', _, _, _, _, h⟩ | ⟨h, _⟩
      · exfalso
        have h' : (0 : UInt8) :: k.toBytes.1 = k'.toBytes.1 := congrArg Subtype.val h
        have h'' : (0 : UInt8) :: k.toBytes.1 =
          (if k'.publicKey.y % 2 = 1 then (3 : UInt8) else 2) :: natBE 32 k'.publicKey.x := h'
        injection h'' with h0 _
        split at h0 <;> exact absurd h0 (by decide)
      · exact h
  · intro k p hp
    obtain ⟨h1, h2, h3⟩ := priv_const hp
    obtain ⟨s, hs, hf⟩ := (C47_version_determines_prefix_partial H (k.toExtendedKey p)).1 h1
    refine ⟨s, hs, ?_, ?_⟩
    · unfold XPrv.fromStr
      rw [hf, Res.ok_bind]
      rcases xprv_tryFrom_cases (k.toExtendedKey p) with ⟨k', _, _, _, h⟩ | ⟨h, _⟩
      · exfalso
        have h'' : (if k.publicKey.y % 2 = 1 then (3 : UInt8) else 2) :: natBE 32 k.publicKey.x =
          (0 : UInt8) :: k'.toBytes.1 := h
        injection h'' with h0 _
        split at h0 <;> exact absurd h0 (by decide)
      · exact h
    · unfold XPub.fromStr
      rw [hf, Res.ok_bind]
      rcases xpub_tryFrom_cases (k.toExtendedKey p) with ⟨k', _, h, _⟩ | ⟨h, _⟩
      · rw [show (k.toExtendedKey p).pfx = p from rfl, h3] at h; cases h
      · exact h

-- one text of each kind
example (H : Hashes) : (∃ s, exKey.toString H .XPUB = .ok s ∧ XPub.fromStr H s = .err .crypto) ∧
    ∃ s, exKey.publicKey.toString H .XPRV = .ok s ∧ XPrv.fromStr H s = .err .crypto := by
  obtain ⟨s, h1, _, h2⟩ := (C44_private_public_separate H).2.1 exKey .XPUB (by decide +kernel)
  obtain ⟨t, h3, h4, _⟩ := (C44_private_public_separate H).2.2 exKey.publicKey .XPRV (by decide +kernel)
  exact ⟨⟨s, h1, h2⟩, t, h3, h4⟩

/-! ### equality -/

/-- What `==` on extended private keys decides: equality of the attributes.  -/
theorem xprv_eq_iff (a b : XPrv) : a.eq b = true ↔ a.attrs = b.attrs := by
  obtain ⟨_, ⟨d, f, ⟨c⟩, cc⟩⟩ := a
  obtain ⟨_, ⟨d', f', ⟨c'⟩, cc'⟩⟩ := b
  unfold XPrv.eq
  simp only [beq_self_eq_true, Bool.true_and, Bool.and_eq_true, beq_iff_eq, ExtendedKeyAttrs.mk.injEq,
    ChildNumber.mk.injEq, and_assoc]

theorem xpub_inj {a b : XPrv} (h : a.publicKey = b.publicKey) : a.privateKey = b.privateKey :=
  Secp.fromSecretKey_inj (congrArg XPub.publicKey h)

/-- C45, false as stated: every key has, for every other private key, a key that is `==` to it and differs from it;
in particular two different keys, with different texts and public keys, compare equal. -/
theorem C45_eq_ignores_private_key (H : Hashes) :
    (∀ (a : XPrv) (s : SecretKey), a.eq ⟨s, a.attrs⟩ = true) ∧
    ∃ a b : XPrv, a.eq b = true ∧ a.toBytes ≠ b.toBytes ∧ a.publicKey ≠ b.publicKey ∧
      a.toString H .XPRV ≠ b.toString H .XPRV := by
  refine ⟨fun a s => (xprv_eq_iff _ _).2 rfl, exKey, ⟨⟨2, by decide, by decide⟩, exKey.attrs⟩,
    (xprv_eq_iff _ _).2 rfl, ?_, ?_, ?_⟩
  · decide
  · intro h
    exact absurd (congrArg SecretKey.k (xpub_inj h)) (by decide)
  · intro h
    obtain ⟨s, h1, h2⟩ := C38_xprv_round_trip H exKey .XPRV (by decide +kernel)
    obtain ⟨t, h3, h4⟩ := C38_xprv_round_trip H ⟨⟨2, by decide, by decide⟩, exKey.attrs⟩ .XPRV (by decide +kernel)
    rw [h1, h3] at h
    cases h
    rw [h2] at h4
    injection h4 with h4
    exact absurd (congrArg (fun k => k.privateKey.k) h4) (by decide)

/-- C45, the part that holds (full statement: `a == b` iff the private keys and all attributes agree): `==` is equality
of the attributes, hence an equivalence, and equal keys are `==`. -/
theorem C45_eq_attrs_partial (a b : XPrv) :
    (a.eq b = true ↔ a.attrs.depth = b.attrs.depth ∧ a.attrs.parentFingerprint = b.attrs.parentFingerprint ∧
      a.attrs.childNumber = b.attrs.childNumber ∧ a.attrs.chainCode = b.attrs.chainCode) ∧
    a.eq a = true ∧ a.eq b = b.eq a ∧ (∀ c, a.eq b = true → b.eq c = true → a.eq c = true) := by
  refine ⟨?_, (xprv_eq_iff a a).2 rfl, ?_, ?_⟩
  · rw [xprv_eq_iff]
    obtain ⟨_, ⟨d, f, c, cc⟩⟩ := a
    obtain ⟨_, ⟨d', f', c', cc'⟩⟩ := b
    simp
  · rw [Bool.eq_iff_iff, xprv_eq_iff, xprv_eq_iff]
    exact eq_comm
  · intro c h1 h2
    rw [xprv_eq_iff] at *
    exact h1.trans h2

-- the keys 1 and 2 with the same attributes are `==`; at another depth they are not
example : exKey.eq ⟨⟨2, by decide, by decide⟩, exKey.attrs⟩ = true ∧
    exKey.eq ⟨exKey.privateKey, { exKey.attrs with depth := 1 }⟩ = false := by
  decide +kernel

/-! ### Debug -/

/-- The decimal digits of the bytes, in brackets, separated by a comma and a space. -/
def byteList (b : List UInt8) : Str := ['['] ++ List.intercalate [',', ' '] (b.map (fun x => Nat.toDigits 10 x.toNat)) ++ [']']

theorem join_eq_intercalate (sep : Str) (l : List Str) : join sep l = List.intercalate sep l := by
  cases l with
  | nil => rfl
  | cons a l =>
    show l.foldl (fun buffer item => buffer ++ sep ++ item) a = List.intercalate sep (a :: l)
    induction l generalizing a with
    | nil => simp [List.intercalate]
    | cons b l ih =>
      rw [List.foldl_cons, ih]
      cases l <;> simp [List.intercalate]

theorem debugList_bytes (b : Bytes) : debugList false (b.map debugU8) = byteList b := by
  have e6 : ", ".toList = [',', ' '] := by decide +kernel
  unfold debugList byteList
  rw [join_eq_intercalate, e6]
  rfl

/-- C48. The `Debug` text of an extended private key does not depend on the private key, with `{:?}` and with `{:#?}`;
with `{:?}` it is the text below, which has `"..."` in place of the key. -/
theorem C48_debug_hides_key (k : XPrv) :
    (∀ pretty (k' : XPrv), k'.attrs = k.attrs → k'.debug pretty = k.debug pretty) ∧
    k.debug false = "ExtendedPrivateKey { private_key: \"...\", attrs: ExtendedKeyAttrs { depth: ".toList ++
      Nat.toDigits 10 k.attrs.depth.toNat ++ ", parent_fingerprint: ".toList ++ byteList k.attrs.parentFingerprint.1 ++
      ", child_number: ChildNumber(".toList ++ Nat.toDigits 10 k.attrs.childNumber.n.toNat ++ "), chain_code: ".toList ++
      byteList k.attrs.chainCode.1 ++ " } }".toList := by
  refine ⟨fun pretty k' h => ?_, ?_⟩
  · unfold XPrv.debug
    rw [h]
  · have e1 : "ExtendedPrivateKey { private_key: \"...\", attrs: ExtendedKeyAttrs { depth: ".toList =
        "ExtendedPrivateKey".toList ++ " { ".toList ++ "private_key".toList ++ ": ".toList ++ ['"'] ++ "...".toList ++
        ['"'] ++ ", ".toList ++ "attrs".toList ++ ": ".toList ++ "ExtendedKeyAttrs".toList ++ " { ".toList ++
        "depth".toList ++ ": ".toList := by decide +kernel
    have e2 : ", parent_fingerprint: ".toList = ", ".toList ++ "parent_fingerprint".toList ++ ": ".toList := by
      decide +kernel
    have e3 : ", child_number: ChildNumber(".toList = ", ".toList ++ "child_number".toList ++ ": ".toList ++
        "ChildNumber".toList ++ ['('] := by decide +kernel
    have e4 : "), chain_code: ".toList = [')'] ++ ", ".toList ++ "chain_code".toList ++ ": ".toList := by decide +kernel
    have e5 : " } }".toList = " }".toList ++ " }".toList := by decide +kernel
    unfold XPrv.debug ExtendedKeyAttrs.debug ChildNumber.debug debugStruct debugTuple1 debugStr
    rw [debugList_bytes, debugList_bytes, e1, e2, e3, e4, e5]
    generalize byteList k.attrs.parentFingerprint.1 = A
    generalize byteList k.attrs.chainCode.1 = B
    unfold debugU8 decimal
    simp only [Bool.false_eq_true, if_false, List.map_cons, List.map_nil, join, List.foldl_cons, List.foldl_nil,
      List.append_assoc]

-- another key with the same attributes
example (pretty : Bool) : exKey.debug pretty = XPrv.debug pretty ⟨⟨2, by decide, by decide⟩, exKey.attrs⟩ :=
  (C48_debug_hides_key ⟨⟨2, by decide, by decide⟩, exKey.attrs⟩).1 pretty exKey rfl

/-! ### watch-only wallets -/

/-- C54. Writing the public key of an extended private key with a public prefix, parsing that text and deriving a path
with no hardened number has the same outcome as deriving privately and taking the public key, and so has writing the
result with any prefix. -/
theorem C54_watch_only (H : Hashes) (k : XPrv) (path : DerivationPath) (p q : Prefix)
    (hp : p ∈ [Prefix.TPUB, .XPUB, .YPUB, .ZPUB]) (hpath : ∀ i ∈ path.iter, i.n.toNat < 2 ^ 31) :
    (do let text ← k.publicKey.toString H p
        let watch ← XPub.fromStr H text
        let child ← watch.deriveFromPath H path
        child.toString H q) =
    (do let child ← k.deriveFromPath H path
        child.publicKey.toString H q) := by
  obtain ⟨s, h1, h2⟩ := C39_xpub_round_trip H k.publicKey p hp (.inr ⟨_, publicKey_coords k⟩)
  rw [h1, Res.ok_bind, h2, Res.ok_bind, ← (C31_public_matches_private H k).2 path hpath]
  cases k.deriveFromPath H path <;> rfl

-- the two sides are a text, not a failure, for a path of one step
example : ∃ c, exKey.deriveFromPath (constHash 2) ⟨[⟨5⟩]⟩ = .ok c ∧ ∃ s, c.publicKey.toString (constHash 2) .XPUB = .ok s := by
  rcases xprv_outcome (constHash 2) exKey ⟨5⟩ with ⟨h, _⟩ | ⟨_, h, _⟩ | ⟨_, _, h, _⟩ | ⟨_, _, _, c, h, _⟩
  · exact absurd h (by decide)
  · rw [const_I (by decide)] at h; exact absurd h (by decide)
  · rw [const_I (by decide)] at h; exact absurd h (by decide)
  · obtain ⟨s, _, hs, _⟩ := C41_write_base58_total (constHash 2) (c.publicKey.toExtendedKey .XPUB)
    exact ⟨c, by simpa [XPrv.deriveFromPath, DerivationPath.iter] using h, s, hs⟩

end Kms.Props
