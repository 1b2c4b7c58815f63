import Verif.Model.GenericOrder
import Verif.Spec.Order
import Verif.Props.Order
import Verif.Props.Outcomes
/-
C107: the comparisons of public values obey the contracts of Rust's comparison traits.
-/
namespace Kms.Props
open Kms.Bip32 Kms.Spec

theorem slicePartialCmp_eq (a b : Bytes) : slicePartialCmp a b = some (sliceCmp a b) := by
  induction a generalizing b with
  | nil => cases b <;> rfl
  | cons x a ih =>
    cases b with
    | nil => rfl
    | cons y b =>
      rw [slicePartialCmp, sliceCmp, ih]
      cases compare x.toNat y.toNat <;> rfl

theorem thenPartial_some (a b : Ordering) : thenPartial (some a) (some b) = some (a.then b) := by cases a <;> rfl

/-- Two comparisons made one after the other. -/
theorem lawful_then {α β : Type} {e1 : α → α → Bool} {p1 : α → α → Option Ordering} {c1 : α → α → Ordering}
    {e2 : β → β → Bool} {p2 : β → β → Option Ordering} {c2 : β → β → Ordering}
    (h1 : LawfulOrd e1 p1 c1) (h2 : LawfulOrd e2 p2 c2) {γ : Type} (f : γ → α) (g : γ → β) :
    LawfulOrd (fun a b : γ => e1 (f a) (f b) && e2 (g a) (g b)) (fun a b => thenPartial (p1 (f a) (f b)) (p2 (g a) (g b)))
      (fun a b => (c1 (f a) (f b)).then (c2 (g a) (g b))) where
  eq_iff a b := by rw [Bool.and_eq_true, h1.eq_iff, h2.eq_iff, then_eq]
  total a b := by rw [h1.total, h2.total, thenPartial_some]
  refl a := by rw [h1.refl, h2.refl]; rfl
  dual a b := by rw [h1.dual (f a), h2.dual (g a), Ordering.swap_then]
  lt_trans a b c hab hbc := by
    rw [then_lt] at hab hbc ⊢
    rcases hab with hab | ⟨hab, hab'⟩
    · rcases hbc with hbc | ⟨hbc, _⟩
      · exact .inl (h1.lt_trans _ _ _ hab hbc)
      · left
        have hcb : c1 (f c) (f b) = .eq := by rw [h1.dual (f b), hbc]; rfl
        rw [h1.dual (f c), h1.congr _ _ _ hcb, ← h1.dual (f b)]
        exact hab
    · rw [h1.congr _ _ _ hab]
      rcases hbc with hbc | ⟨hbc, hbc'⟩
      · exact .inl hbc
      · exact .inr ⟨hbc, h2.lt_trans _ _ _ hab' hbc'⟩
  congr a b c hab := by
    rw [then_eq] at hab
    rw [h1.congr _ _ _ hab.1, h2.congr _ _ _ hab.2]

/-- A comparison that is equal on identical values only and is read from an order. -/
theorem lawful_of {α : Type} {e : α → α → Bool} {p : α → α → Option Ordering} {c : α → α → Ordering}
    (he : ∀ a b, e a b = true ↔ a = b) (hp : ∀ a b, p a b = some (c a b)) (hc : ∀ a b, c a b = .eq ↔ a = b)
    (hg : ∀ a b, c a b = .gt ↔ c b a = .lt) (ht : ∀ x y z, c x y = .lt → c y z = .lt → c x z = .lt) : LawfulOrd e p c where
  eq_iff a b := (he a b).trans (hc a b).symm
  total := hp
  refl a := (hc a a).2 rfl
  dual a b := by
    rcases h : c a b with _ | _ | _
    · exact (hg b a).2 h
    · rw [(hc a b).1 h]
      exact (hc b b).2 rfl
    · exact (hg a b).1 h
  lt_trans := ht
  congr a b c h := by rw [(hc a b).1 h]

theorem lawful_attrs : LawfulOrd ExtendedKeyAttrs.eq ExtendedKeyAttrs.partialCmp ExtendedKeyAttrs.cmp := by
  obtain ⟨h1, h2, _⟩ := C67_derived_order
  refine lawful_of attrs_eq_iff ?_ (fun a b => (h2 a b).1) (fun a b => (h2 a b).2) ?_
  · intro a b
    unfold ExtendedKeyAttrs.partialCmp ExtendedKeyAttrs.cmp ChildNumber.partialCmp ChildNumber.cmp
    rw [slicePartialCmp_eq, slicePartialCmp_eq, thenPartial_some, thenPartial_some, thenPartial_some]
  · intro a b c
    rw [h1 0 0 a b [] [], h1 0 0 b c [] [], h1 0 0 a c [] []]
    exact List.lt_trans

theorem lawful_prefix : LawfulOrd Prefix.eq Prefix.partialCmp Prefix.cmp := by
  obtain ⟨_, _, h1, h2, _⟩ := C67_derived_order
  refine lawful_of ?_ ?_ (fun a b => (h2 a b).1) (fun a b => (h2 a b).2) ?_
  · rintro ⟨⟨a, _⟩, v⟩ ⟨⟨b, _⟩, w⟩
    simp [Prefix.eq]
  · intro a b
    unfold Prefix.partialCmp Prefix.cmp
    rw [slicePartialCmp_eq, thenPartial_some]
  · intro a b c
    rw [h1, h1, h1]
    exact List.lt_trans

theorem lawful_child : LawfulOrd ChildNumber.eq ChildNumber.partialCmp ChildNumber.cmp := by
  obtain ⟨_, _, _, _, h⟩ := C67_derived_order
  refine lawful_of ?_ (fun _ _ => rfl) (fun a b => (h a b).2.1) (fun a b => (h a b).2.2) ?_
  · rintro ⟨a⟩ ⟨b⟩
    simp [ChildNumber.eq]
  · intro a b c
    rw [(h a b).1, (h b c).1, (h a c).1]
    exact List.lt_trans

/-- The 41 bytes of the attributes in a serialised key. -/
def attrBytes (a : ExtendedKeyAttrs) : Bytes :=
  ((layout 0 a.depth a.parentFingerprint.1 a.childNumber.n.toNat a.chainCode.1 []).drop 4).take 41

/-- **C107** `==`, `partial_cmp` and `cmp` of attributes, prefixes and child numbers agree and are total orders.  Those of
extended public keys over any key type agree and are a total order if and only if those of the key type are; the key
decides first, then the attributes in the order of their bytes.  If keys are ordered by their bytes, extended keys are
ordered by the bytes of the key followed by those of the attributes. -/
theorem C107_comparison_contracts :
    LawfulOrd ExtendedKeyAttrs.eq ExtendedKeyAttrs.partialCmp ExtendedKeyAttrs.cmp ∧
    LawfulOrd Prefix.eq Prefix.partialCmp Prefix.cmp ∧
    LawfulOrd ChildNumber.eq ChildNumber.partialCmp ChildNumber.cmp ∧
    ∀ (K : KeyImpl) (keyEq : K.PK → K.PK → Bool) (keyPartialCmp : K.PK → K.PK → Option Ordering) (keyCmp : K.PK → K.PK → Ordering),
      (LawfulOrd (GPub.eq keyEq) (GPub.partialCmp keyPartialCmp) (GPub.cmp keyCmp) ↔ LawfulOrd keyEq keyPartialCmp keyCmp) ∧
      (∀ a b : GPub K, GPub.cmp keyCmp a b = .lt ↔ keyCmp a.publicKey b.publicKey = .lt ∨
        keyCmp a.publicKey b.publicKey = .eq ∧ attrBytes a.attrs < attrBytes b.attrs) ∧
      ((∀ P Q : K.PK, keyCmp P Q = .lt ↔ (K.pubToBytes P).1 < (K.pubToBytes Q).1) →
        (∀ P Q : K.PK, keyCmp P Q = .eq ↔ K.pubToBytes P = K.pubToBytes Q) →
        ∀ a b : GPub K, GPub.cmp keyCmp a b = .lt ↔ a.toBytes.1 ++ attrBytes a.attrs < b.toBytes.1 ++ attrBytes b.attrs) := by
  refine ⟨lawful_attrs, lawful_prefix, lawful_child, fun K keyEq keyPartialCmp keyCmp => ?_⟩
  have hlt : ∀ a b : GPub K, GPub.cmp keyCmp a b = .lt ↔ keyCmp a.publicKey b.publicKey = .lt ∨
        keyCmp a.publicKey b.publicKey = .eq ∧ attrBytes a.attrs < attrBytes b.attrs := by
    intro a b
    unfold GPub.cmp
    rw [then_lt, C67_derived_order.1 0 0 a.attrs b.attrs [] []]
    rfl
  refine ⟨⟨fun h => ?_, fun h => ?_⟩, hlt, fun h1 h2 a b => ?_⟩
  · -- keys with the same attributes
    let t : ExtendedKeyAttrs := ⟨0, zeroArr 4, ⟨0⟩, zeroArr 32⟩
    have hc : ∀ P Q : K.PK, GPub.cmp keyCmp ⟨P, t⟩ ⟨Q, t⟩ = keyCmp P Q := by
      intro P Q
      unfold GPub.cmp
      rw [lawful_attrs.refl]
      cases keyCmp P Q <;> rfl
    have ha : t.eq t = true := (attrs_eq_iff t t).2 rfl
    refine ⟨fun P Q => ?_, fun P Q => ?_, fun P => ?_, fun P Q => ?_, fun P Q R => ?_, fun P Q R => ?_⟩
    · have := h.eq_iff ⟨P, t⟩ ⟨Q, t⟩
      rw [hc] at this
      rw [← this]
      unfold GPub.eq
      rw [ha, Bool.and_true]
    · have := h.total ⟨P, t⟩ ⟨Q, t⟩
      rw [hc] at this
      rw [← this]
      unfold GPub.partialCmp
      rw [lawful_attrs.total, lawful_attrs.refl]
      rcases keyPartialCmp P Q with _ | _ | _ | _ <;> rfl
    · rw [← hc]
      exact h.refl _
    · rw [← hc, ← hc]
      exact h.dual _ _
    · rw [← hc P, ← hc Q, ← hc P]
      exact h.lt_trans _ _ _
    · rw [← hc P, ← hc P, ← hc Q]
      exact h.congr _ _ _
  · exact lawful_then h lawful_attrs (fun a : GPub K => a.publicKey) (fun a => a.attrs)
  · rw [hlt, h1, h2, append_lt_append _ _ (a.toBytes.2.trans b.toBytes.2.symm), Subtype.ext_iff]
    rfl

-- a key type ordered by its bytes: 33-byte strings
example (H : Hashes) : LawfulOrd (GPub.eq (K := { secpImpl H with PK := ByteArr 33, publicKey := fun k => PublicKey.toBytes ((secpImpl H).publicKey k), pubFromBytes := fun b => .ok b, pubToBytes := fun b => b, pubDeriveChild := fun b _ => .ok b, fingerprint := fun _ => zeroArr 4 }) (fun a b => a.1 == b.1))
    (GPub.partialCmp (fun a b => slicePartialCmp a.1 b.1)) (GPub.cmp (fun a b => sliceCmp a.1 b.1)) := by
  refine ((C107_comparison_contracts.2.2.2 _ _ _ _).1).2 (lawful_of ?_ (fun a b => slicePartialCmp_eq _ _) ?_ ?_ ?_)
  · intro a b
    simp [Subtype.ext_iff]
  · intro a b
    rw [sliceCmp_eq, Subtype.ext_iff]
  · intro a b
    rw [sliceCmp_swap]
    cases sliceCmp b.1 a.1 <;> simp
  · intro a b c
    rw [sliceCmp_lt, sliceCmp_lt, sliceCmp_lt]
    exact List.lt_trans

end Kms.Props
