import Verif.Props.KeysMore
import Verif.Props.Order
import Verif.Model.Equality
/-
C79–C83: outcomes of public derivation and of paths, keys read back and resumed, equality.
-/
namespace Kms.Props
open Kms.Bip32 Kms.Spec Kms.Spec.Bip32
open Kms.Spec.Secp (Point G n p HasCoords)

/-- C79. The failures of `derive_child` of a public key that is the point `Q`: the error `ChildNumber` exactly for hardened
numbers, `Depth` exactly for the others at depth 255, `Crypto` exactly if `Q + I_L G` is infinity, and a panic exactly if
`I_L` is 0 or at least n; no other error. -/
theorem C79_public_child_failures (H : Hashes) (k : XPub) (Q : Point) (hQ : HasCoords Q k.publicKey.x k.publicKey.y)
    (i : ChildNumber) :
    let I := Ipub (specHash H) k.attrs.chainCode.1 Q i.n.toNat
    (∀ e, k.deriveChild H i = .err e ↔
      (2 ^ 31 ≤ i.n.toNat ∧ e = .childNumber) ∨
      (i.n.toNat < 2 ^ 31 ∧ k.attrs.depth.toNat = 255 ∧ e = .depth) ∨
      (i.n.toNat < 2 ^ 31 ∧ k.attrs.depth.toNat < 255 ∧ 0 < IL I ∧ IL I < n ∧ Q + IL I • G = 0 ∧ e = .crypto)) ∧
    (k.deriveChild H i = .panic ↔
      i.n.toNat < 2 ^ 31 ∧ k.attrs.depth.toNat < 255 ∧ (IL I = 0 ∨ n ≤ IL I)) := by
  intro J
  rcases xpub_outcome H k Q hQ i with ⟨h1, h⟩ | ⟨h1, h2, h⟩ | ⟨h1, h2, h3, h⟩ | ⟨h1, h2, h3, h4, h⟩ |
    ⟨h1, h2, h3, h4, c, h, _⟩ <;> rw [h]
  · refine ⟨fun e => ⟨fun he => ?_, ?_⟩, by simp, by omega⟩
    · cases he; exact .inl ⟨h1, rfl⟩
    · rintro (⟨_, rfl⟩ | ⟨h, _⟩ | ⟨h, _⟩)
      · rfl
      all_goals omega
  · refine ⟨fun e => ⟨fun he => ?_, ?_⟩, by simp, by omega⟩
    · cases he; exact .inr (.inl ⟨h1, h2, rfl⟩)
    · rintro (⟨h, _⟩ | ⟨_, _, rfl⟩ | ⟨_, h, _⟩)
      · omega
      · rfl
      · omega
  · change (IL J = 0 ∨ n ≤ IL J) at h3
    refine ⟨fun e => ⟨by simp, ?_⟩, fun _ => ⟨h1, h2, h3⟩, fun _ => rfl⟩
    rintro (⟨h, _⟩ | ⟨_, h, _⟩ | ⟨_, _, h, h', _⟩) <;> omega
  · change (0 < IL J ∧ IL J < n) at h3
    change Q + IL J • G = 0 at h4
    refine ⟨fun e => ⟨fun he => ?_, ?_⟩, by simp, by omega⟩
    · cases he; exact .inr (.inr ⟨h1, h2, h3.1, h3.2, h4, rfl⟩)
    · rintro (⟨h, _⟩ | ⟨_, h, _⟩ | ⟨_, _, _, _, _, rfl⟩)
      · omega
      · omega
      · rfl
  · change (0 < IL J ∧ IL J < n) at h3
    change Q + IL J • G ≠ 0 at h4
    refine ⟨fun e => ⟨by simp, ?_⟩, by simp, by omega⟩
    rintro (⟨h, _⟩ | ⟨_, h, _⟩ | ⟨_, _, _, _, h, _⟩)
    · omega
    · omega
    · exact absurd h h4

/-- C79 is not vacuous: the public key of the private key 1 is a point, and with an `I_L` of n - 1 its child is infinity. -/
example : exKey.publicKey.deriveChild (constHash (n - 1)) ⟨7⟩ = .err .crypto := by
  rw [← (C31_public_matches_private _ exKey).1 ⟨7⟩ (by decide)]
  rcases xprv_outcome (constHash (n - 1)) exKey ⟨7⟩ with ⟨h, _⟩ | ⟨_, h, _⟩ | ⟨_, _, _, h⟩ | ⟨_, _, h, _⟩
  · exact absurd h (by decide)
  · rw [const_I (by decide)] at h; exact absurd h (by decide)
  · rw [h]; rfl
  · rw [const_I (by decide)] at h; exact absurd (by decide) h

/-! ### paths -/

theorem foldl_fails {α β : Type} (f : β → α → Res Error β) (l : List α) (b : β) (r : Res Error β) (hr : ∀ c, r ≠ .ok c) :
    l.foldl (fun m a => m >>= fun b => f b a) (.ok b) = r ↔
      ∃ pre a post c, l = pre ++ a :: post ∧ pre.foldl (fun m a => m >>= fun b => f b a) (.ok b) = .ok c ∧ f c a = r := by
  induction l generalizing b with
  | nil =>
    simp only [List.foldl_nil]
    exact ⟨fun h => absurd h.symm (hr b), fun ⟨pre, a, post, _, h, _⟩ => by simp at h⟩
  | cons x l ih =>
    rw [List.foldl_cons, foldl_bind]
    constructor
    · intro h
      cases hx : f b x with
      | ok c =>
        simp only [Res.ok_bind, hx] at h
        obtain ⟨pre, a, post, d, h1, h2, h3⟩ := (ih c).1 h
        refine ⟨x :: pre, a, post, d, by rw [h1]; rfl, ?_, h3⟩
        rw [List.foldl_cons, foldl_bind]
        simp only [Res.ok_bind, hx]
        exact h2
      | err e =>
        simp only [Res.ok_bind, hx, Res.err_bind] at h
        exact ⟨[], x, l, b, rfl, rfl, hx.trans h⟩
      | panic =>
        simp only [Res.ok_bind, hx, Res.panic_bind] at h
        exact ⟨[], x, l, b, rfl, rfl, hx.trans h⟩
    · rintro ⟨pre, a, post, c, h1, h2, h3⟩
      cases pre with
      | nil =>
        rw [List.nil_append, List.cons.injEq] at h1
        obtain ⟨rfl, rfl⟩ := h1
        rw [List.foldl_nil] at h2
        cases h2
        simp only [Res.ok_bind, h3]
        cases r with
        | ok c => exact absurd rfl (hr c)
        | err e => rfl
        | panic => rfl
      | cons y pre =>
        rw [List.cons_append, List.cons.injEq] at h1
        obtain ⟨rfl, rfl⟩ := h1
        rw [List.foldl_cons, foldl_bind] at h2
        simp only [Res.ok_bind] at h2 ⊢
        rw [Res.bind_eq_ok] at h2
        obtain ⟨d, hd, h2⟩ := h2
        rw [hd]
        exact (ih d).2 ⟨pre, a, post, c, rfl, h2, h3⟩

/-- C80. Deriving along a path fails exactly when one step of it fails after the steps before it succeeded, and with that
step's error (or panic); so nothing after the first failing number matters. -/
theorem C80_path_first_failure (H : Hashes) :
    (∀ (k : XPrv) (path : DerivationPath) r, (∀ c, r ≠ .ok c) → (k.deriveFromPath H path = r ↔
      ∃ pre i post c, path.iter = pre ++ i :: post ∧
        k.deriveFromPath H (DerivationPath.default.extend pre) = .ok c ∧ c.deriveChild H i = r)) ∧
    (∀ (k : XPub) (path : DerivationPath) r, (∀ c, r ≠ .ok c) → (k.deriveFromPath H path = r ↔
      ∃ pre i post c, path.iter = pre ++ i :: post ∧
        k.deriveFromPath H (DerivationPath.default.extend pre) = .ok c ∧ c.deriveChild H i = r)) ∧
    (∀ (seed : Bytes) (path : DerivationPath) r, (∀ c, r ≠ .ok c) → (XPrv.newFromPath H seed path = r ↔
      XPrv.new H seed = r ∨ ∃ k, XPrv.new H seed = .ok k ∧ k.deriveFromPath H path = r)) := by
  refine ⟨fun k path r hr => ?_, fun k path r hr => ?_, fun seed path r hr => ?_⟩
  · exact foldl_fails (fun (b : XPrv) a => b.deriveChild H a) path.path k r hr
  · exact foldl_fails (fun (b : XPub) a => b.deriveChild H a) path.path k r hr
  · rw [(C30_path_composition H path .default).2.2.1 seed]
    cases h : XPrv.new H seed with
    | ok k =>
      simp only [Res.ok_bind, Res.ok.injEq, exists_eq_left']
      exact ⟨.inr, fun h => h.elim (fun h => absurd h.symm (hr k)) id⟩
    | err e => simp
    | panic => simp

/-- C80 is not vacuous: a public path whose second number is hardened fails there. -/
example : ∃ c, exKey.publicKey.deriveFromPath (constHash 2) (DerivationPath.default.extend [⟨5⟩]) = .ok c ∧
    c.deriveChild (constHash 2) ⟨0x80000000⟩ = .err .childNumber ∧
    exKey.publicKey.deriveFromPath (constHash 2) ⟨[⟨5⟩, ⟨0x80000000⟩, ⟨3⟩]⟩ = .err .childNumber := by
  have h5 : ∃ c, exKey.publicKey.deriveChild (constHash 2) ⟨5⟩ = .ok c := by
    rw [← (C31_public_matches_private _ exKey).1 ⟨5⟩ (by decide)]
    rcases xprv_outcome (constHash 2) exKey ⟨5⟩ with ⟨h, _⟩ | ⟨_, h, _⟩ | ⟨_, _, h, _⟩ | ⟨_, _, _, c, h, _⟩
    · exact absurd h (by decide)
    · rw [const_I (by decide)] at h; exact absurd h (by decide)
    · rw [const_I (by decide)] at h; exact absurd h (by decide)
    · exact ⟨c.publicKey, by rw [h]; rfl⟩
  obtain ⟨c, hc⟩ := h5
  have h2 := (C32_no_hardened_public (constHash 2) c).1 ⟨0x80000000⟩ (by decide)
  have h3 : exKey.publicKey.deriveFromPath (constHash 2) (DerivationPath.default.extend [⟨5⟩]) = .ok c := by
    rw [← hc]
    exact ((C30_path_composition (constHash 2) .default .default).2.2.2.2 exKey.publicKey).2 ⟨5⟩
  exact ⟨c, h3, h2, ((C80_path_first_failure (constHash 2)).2.1 _ _ (.err .childNumber) (fun _ h => by cases h)).2
    ⟨[⟨5⟩], _, [⟨3⟩], c, rfl, h3, h2⟩⟩

/-! ### keys read from text -/

/-- C81. A key read from a text writes that text again, with the prefix the text was read with and with every prefix of the
same version: no information of the text is lost and no second text stands for the same key and version. -/
theorem C81_reread (H : Hashes) (s : Str) :
    (∀ k, XPrv.fromStr H s = .ok k → ∃ e, ExtendedKey.fromStr H s = .ok e ∧ e.pfx.isPrivate = true ∧
      ∀ q : Prefix, k.toString H q = .ok s ↔ q.version = e.pfx.version) ∧
    (∀ k, XPub.fromStr H s = .ok k → ∃ e, ExtendedKey.fromStr H s = .ok e ∧ e.pfx.isPublic = true ∧
      ∀ q : Prefix, k.toString H q = .ok s ↔ q.version = e.pfx.version) := by
  have key : ∀ (e : ExtendedKey) (a : ExtendedKeyAttrs) (b : ByteArr 33), ExtendedKey.fromStr H s = .ok e →
      e.attrs = a → e.keyBytes = b → ∀ q : Prefix, ExtendedKey.toString H ⟨q, a, b⟩ = .ok s ↔ q.version = e.pfx.version := by
    intro e a b he ha hb q
    have h0 := (C40_text_canonical H).1 s e he
    constructor
    · intro h
      exact (text_payload H (h.trans h0.symm)).1
    · intro h
      rw [ExtendedKey.toString_iff] at h0 ⊢
      subst ha hb
      have : ExtendedKey.serialize ⟨q, e.attrs, e.keyBytes⟩ = e.serialize := by
        rw [layout_serialize, layout_serialize, h]
      rw [this]
      exact h0
  refine ⟨fun k h => ?_, fun k h => ?_⟩
  · unfold XPrv.fromStr at h
    rw [Res.bind_eq_ok] at h
    obtain ⟨e, he, h⟩ := h
    rcases xprv_tryFrom_cases e with ⟨k', h1, h2, h3, h4⟩ | ⟨h1, _⟩
    · rw [h1] at h
      cases h
      exact ⟨e, he, h2, key e _ _ he h3 (Subtype.ext h4)⟩
    · rw [h1] at h
      cases h
  · unfold XPub.fromStr at h
    rw [Res.bind_eq_ok] at h
    obtain ⟨e, he, h⟩ := h
    rcases xpub_tryFrom_cases e with ⟨k', h1, h2, h3, _, h4⟩ | ⟨h1, _⟩
    · rw [h1] at h
      cases h
      exact ⟨e, he, h2, key e _ _ he h3 h4⟩
    · rw [h1] at h
      cases h

/-- C81 is not vacuous: the texts of the example key and of its public key are read. -/
example (H : Hashes) : (∃ s k, XPrv.fromStr H s = .ok k) ∧ ∃ s k, XPub.fromStr H s = .ok k := by
  obtain ⟨s, _, h⟩ := C38_xprv_round_trip H exKey .XPRV (by decide +kernel)
  obtain ⟨t, _, h'⟩ := C39_xpub_round_trip H exKey.publicKey .XPUB (by decide +kernel) (.inr ⟨_, publicKey_coords exKey⟩)
  exact ⟨⟨s, _, h⟩, t, _, h'⟩

/-- C82. Deriving can be stopped and resumed: writing the key reached so far, reading the text back and deriving the rest of
the path has the same outcome as deriving the whole path.  For private keys with any private prefix, from a key or from the
seed, and for public keys with any public prefix. -/
theorem C82_resume (H : Hashes) (first rest : DerivationPath) :
    (∀ (k : XPrv) (q : Prefix), q ∈ [Prefix.TPRV, .XPRV, .YPRV, .ZPRV] →
      (do let c ← k.deriveFromPath H first
          let text ← c.toString H q
          let c' ← XPrv.fromStr H text
          c'.deriveFromPath H rest) = k.deriveFromPath H (first.extend rest.iter)) ∧
    (∀ (seed : Bytes) (q : Prefix), q ∈ [Prefix.TPRV, .XPRV, .YPRV, .ZPRV] →
      (do let c ← XPrv.newFromPath H seed first
          let text ← c.toString H q
          let c' ← XPrv.fromStr H text
          c'.deriveFromPath H rest) = XPrv.newFromPath H seed (first.extend rest.iter)) ∧
    (∀ (k : XPub) (q : Prefix), q ∈ [Prefix.TPUB, .XPUB, .YPUB, .ZPUB] →
      (ReachPub H k ∨ ∃ Q, HasCoords Q k.publicKey.x k.publicKey.y) →
      (do let c ← k.deriveFromPath H first
          let text ← c.toString H q
          let c' ← XPub.fromStr H text
          c'.deriveFromPath H rest) = k.deriveFromPath H (first.extend rest.iter)) := by
  have prv : ∀ (c : XPrv) (q : Prefix), q ∈ [Prefix.TPRV, .XPRV, .YPRV, .ZPRV] →
      (do let text ← c.toString H q
          let c' ← XPrv.fromStr H text
          c'.deriveFromPath H rest) = c.deriveFromPath H rest := by
    intro c q hq
    obtain ⟨s, h1, h2⟩ := C38_xprv_round_trip H c q hq
    rw [h1, Res.ok_bind, h2, Res.ok_bind]
  refine ⟨fun k q hq => ?_, fun seed q hq => ?_, fun k q hq hk => ?_⟩
  · rw [← (C30_path_composition H first rest).1 k]
    exact congrArg _ (funext fun c => prv c q hq)
  · rw [(C30_path_composition H (first.extend rest.iter) rest).2.2.1, (C30_path_composition H first rest).2.2.1,
      Res.bind_assoc']
    refine congrArg _ (funext fun k => ?_)
    rw [← (C30_path_composition H first rest).1 k]
    exact congrArg _ (funext fun c => prv c q hq)
  · rw [← (C30_path_composition H first rest).2.1 k]
    cases h : k.deriveFromPath H first with
    | err e => rfl
    | panic => rfl
    | ok c =>
      rw [Res.ok_bind, Res.ok_bind]
      have hc : ∃ Q, HasCoords Q c.publicKey.x c.publicKey.y := by
        rcases hk with hk | ⟨Q, hQ⟩
        · exact reach_pub H (.deriveFromPath k first c hk h)
        · obtain ⟨s, _, h2⟩ := C39_xpub_round_trip H k .XPUB (by decide +kernel) (.inr ⟨Q, hQ⟩)
          exact reach_pub H (.deriveFromPath k first c (.fromStr s k h2) h)
      obtain ⟨s, h1, h2⟩ := C39_xpub_round_trip H c q hq (.inr hc)
      rw [h1, Res.ok_bind, h2, Res.ok_bind]

/-- C82 is not vacuous: both sides are a key for a path of two steps. -/
example : ∃ k, exKey.deriveFromPath (constHash 2) ((DerivationPath.mk [⟨5⟩]).extend [⟨0x80000006⟩]) = .ok k ∧ k.privateKey.k = 5 := by
  refine ⟨_, rfl, ?_⟩
  decide +kernel

/-! ### equality -/

theorem attrs_eq_iff (a b : ExtendedKeyAttrs) : a.eq b = true ↔ a = b := by
  obtain ⟨d, ⟨f, _⟩, ⟨c⟩, ⟨cc, _⟩⟩ := a
  obtain ⟨d', ⟨f', _⟩, ⟨c'⟩, ⟨cc', _⟩⟩ := b
  simp [ExtendedKeyAttrs.eq, ChildNumber.eq, and_assoc]

theorem childrenEq_iff (a b : List ChildNumber) : childrenEq a b = true ↔ a = b := by
  unfold childrenEq
  induction a generalizing b with
  | nil => cases b <;> simp
  | cons x a ih =>
    cases b with
    | nil => simp
    | cons y b =>
      have hx : x.eq y = true ↔ x = y := by
        obtain ⟨x⟩ := x
        obtain ⟨y⟩ := y
        simp [ChildNumber.eq]
      have := ih b
      rw [Bool.and_eq_true, beq_iff_eq] at this
      rw [Bool.and_eq_true, beq_iff_eq, List.zip_cons_cons, List.all_cons, Bool.and_eq_true, hx, List.length_cons,
        List.length_cons, List.cons.injEq, ← this]
      constructor
      · rintro ⟨h1, h2, h3⟩; exact ⟨h2, by omega, h3⟩
      · rintro ⟨h1, h2, h3⟩; exact ⟨by omega, h1, h3⟩

/-- C83. What `==` means.  Extended public keys (points of the curve): `==` exactly if they have the same text with some
prefix, exactly if with every prefix, exactly if the key bytes and the attributes agree.  Child numbers, paths, prefixes and
attributes: `==` exactly if their bytes or texts agree, and exactly if the order says `Equal`. -/
theorem C83_equality (H : Hashes) :
    (∀ a b : XPub, (∃ Q, HasCoords Q a.publicKey.x a.publicKey.y) → (∃ Q, HasCoords Q b.publicKey.x b.publicKey.y) →
      (a.eq b = true ↔ ∀ q, a.toString H q = b.toString H q) ∧
      (a.eq b = true ↔ ∃ q, a.toString H q = b.toString H q) ∧
      (a.eq b = true ↔ a.toBytes = b.toBytes ∧ a.attrs.eq b.attrs = true)) ∧
    (∀ a b : ChildNumber, (a.eq b = true ↔ a.toBytes = b.toBytes) ∧ (a.eq b = true ↔ a.display = b.display) ∧
      (a.eq b = true ↔ a.cmp b = .eq)) ∧
    (∀ a b : DerivationPath, (a.eq b = true ↔ a.iter = b.iter) ∧ (a.eq b = true ↔ a.display = b.display)) ∧
    (∀ a b : Prefix, (a.eq b = true ↔ a.chars = b.chars ∧ a.toBytes = b.toBytes) ∧ (a.eq b = true ↔ a.cmp b = .eq)) ∧
    (∀ a b : ExtendedKeyAttrs, (a.eq b = true ↔ a.depth = b.depth ∧ a.parentFingerprint = b.parentFingerprint ∧
        a.childNumber = b.childNumber ∧ a.chainCode = b.chainCode) ∧
      (a.eq b = true ↔ a.cmp b = .eq)) := by
  refine ⟨fun a b ha hb => ?_, fun a b => ?_, fun a b => ?_, fun a b => ?_, fun a b => ?_⟩
  · have h0 : a.eq b = true ↔ a = b := by
      unfold XPub.eq PublicKey.eq
      rw [Bool.and_eq_true, Bool.and_eq_true, beq_iff_eq, beq_iff_eq, attrs_eq_iff]
      obtain ⟨⟨x, y⟩, t⟩ := a
      obtain ⟨⟨x', y'⟩, t'⟩ := b
      simp [and_assoc]
    have h1 : ∀ q, a.toString H q = b.toString H q → a = b := fun q h => ((C72_text_separates H).2.2.1 a b q q ha hb h).1
    refine ⟨?_, ?_, ?_⟩
    · rw [h0]
      exact ⟨fun h q => by rw [h], fun h => h1 .XPUB (h _)⟩
    · rw [h0]
      exact ⟨fun h => ⟨.XPUB, by rw [h]⟩, fun ⟨q, h⟩ => h1 q h⟩
    · rw [h0, attrs_eq_iff]
      refine ⟨fun h => by rw [h]; exact ⟨rfl, rfl⟩, fun ⟨h2, h3⟩ => h1 .XPUB ?_⟩
      unfold XPub.toString XPub.toExtendedKey
      rw [h2, h3]
  · have h0 : a.eq b = true ↔ a = b := by
      obtain ⟨x⟩ := a
      obtain ⟨y⟩ := b
      simp [ChildNumber.eq]
    refine ⟨?_, ?_, ?_⟩
    · rw [h0]
      refine ⟨fun h => by rw [h], fun h => ?_⟩
      rw [← C24_child_number_bytes.1 a, h, C24_child_number_bytes.1 b]
    · rw [h0]
      refine ⟨fun h => by rw [h], fun h => ?_⟩
      have := C25_child_number_text a
      rw [h, C25_child_number_text b] at this
      exact (Res.ok.inj this).symm
    · rw [h0]
      unfold ChildNumber.cmp
      rw [Nat.compare_eq_eq]
      obtain ⟨x⟩ := a
      obtain ⟨y⟩ := b
      simp [BitVec.toNat_inj]
  · have h0 : a.eq b = true ↔ a = b := by
      unfold DerivationPath.eq
      rw [childrenEq_iff]
      obtain ⟨x⟩ := a
      obtain ⟨y⟩ := b
      simp
    refine ⟨?_, ?_⟩
    · unfold DerivationPath.eq DerivationPath.iter
      exact childrenEq_iff _ _
    · rw [h0]
      exact ⟨fun h => by rw [h], C27_path_text.2 a b⟩
  · have h0 : a.eq b = true ↔ a = b := by
      obtain ⟨⟨x, _⟩, v⟩ := a
      obtain ⟨⟨y, _⟩, w⟩ := b
      simp [Prefix.eq]
    refine ⟨?_, by rw [h0, (C67_derived_order.2.2.2.1 a b).1]⟩
    rw [h0]
    refine ⟨fun h => by rw [h]; exact ⟨rfl, rfl⟩, fun ⟨h1, h2⟩ => ?_⟩
    have h3 : a.version = b.version := by
      rw [← u32FromBE_toBE a.version, ← u32FromBE_toBE b.version]
      exact congrArg _ h2
    obtain ⟨x, v⟩ := a
    obtain ⟨y, w⟩ := b
    simp_all
  · rw [attrs_eq_iff]
    refine ⟨?_, (C67_derived_order.2.1 a b).1.symm⟩
    obtain ⟨d, f, c, cc⟩ := a
    obtain ⟨d', f', c', cc'⟩ := b
    simp

/-- C83 is not vacuous: a key equals itself, and differs from the key at another depth. -/
example : exKey.publicKey.eq exKey.publicKey = true ∧
    exKey.publicKey.eq ⟨exKey.publicKey.publicKey, { exKey.attrs with depth := 1 }⟩ = false := by
  unfold XPub.eq PublicKey.eq
  simp only [beq_self_eq_true, Bool.true_and]
  exact ⟨(attrs_eq_iff _ _).2 rfl, by rw [Bool.eq_false_iff, ne_eq, attrs_eq_iff]; decide⟩

end Kms.Props
