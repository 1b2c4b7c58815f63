import Verif.Model.Order
import Verif.Props.Path
import Verif.Props.ExtendedKey
/-
Property C67: the order of attributes and prefixes.
-/
namespace Kms.Props
open Kms.Bip32 Kms.Spec

theorem then_lt {a b : Ordering} : a.then b = .lt ↔ a = .lt ∨ (a = .eq ∧ b = .lt) := by
  cases a <;> simp [Ordering.then]

theorem then_eq {a b : Ordering} : a.then b = .eq ↔ a = .eq ∧ b = .eq := by
  cases a <;> simp [Ordering.then]

theorem sliceCmp_lt (a b : Bytes) : sliceCmp a b = .lt ↔ a < b := by
  induction a generalizing b with
  | nil => cases b <;> simp [sliceCmp]
  | cons x a ih =>
    cases b with
    | nil => simp [sliceCmp]
    | cons y b =>
      rw [sliceCmp, then_lt, ih, List.cons_lt_cons_iff, Nat.compare_eq_lt, Nat.compare_eq_eq, UInt8.toNat_inj,
        UInt8.lt_iff_toNat_lt]

theorem sliceCmp_eq (a b : Bytes) : sliceCmp a b = .eq ↔ a = b := by
  induction a generalizing b with
  | nil => cases b <;> simp [sliceCmp]
  | cons x a ih =>
    cases b with
    | nil => simp [sliceCmp]
    | cons y b => rw [sliceCmp, then_eq, ih, Nat.compare_eq_eq, UInt8.toNat_inj, List.cons_eq_cons]

theorem sliceCmp_swap (a b : Bytes) : sliceCmp a b = (sliceCmp b a).swap := by
  induction a generalizing b with
  | nil => cases b <;> rfl
  | cons x a ih =>
    cases b with
    | nil => rfl
    | cons y b => rw [sliceCmp, sliceCmp, Ordering.swap_then, Nat.compare_swap, ih]

theorem append_lt_append {a a' : Bytes} (b b' : Bytes) (h : a.length = a'.length) :
    a ++ b < a' ++ b' ↔ a < a' ∨ (a = a' ∧ b < b') := by
  induction a generalizing a' with
  | nil =>
    match a', h with
    | [], _ => simp
  | cons x a ih =>
    match a', h with
    | y :: a', h =>
      simp only [List.cons_append, List.cons_lt_cons_iff, ih (by simpa using h), List.cons_eq_cons]
      constructor
      · rintro (h | ⟨h1, h | ⟨h2, h3⟩⟩)
        · exact .inl (.inl h)
        · exact .inl (.inr ⟨h1, h⟩)
        · exact .inr ⟨⟨h1, h2⟩, h3⟩
      · rintro ((h | ⟨h1, h2⟩) | ⟨⟨h1, h2⟩, h3⟩)
        · exact .inl h
        · exact .inr ⟨h1, .inl h2⟩
        · exact .inr ⟨h1, .inr ⟨h2, h3⟩⟩

theorem u32_lt (a b : BitVec 32) : a.toNat < b.toNat ↔ (u32ToBE a).1 < (u32ToBE b).1 :=
  C24_child_number_bytes.2.2.2 ⟨a⟩ ⟨b⟩

/-- C67. The derived order of attributes is the byte order of the 41 bytes they take in the serialised key, the order
of prefixes is the byte order of their text followed by the version, that of child numbers the order of their four bytes;
all are equal exactly on equal values, and comparing the other way round gives the opposite answer. -/
theorem C67_derived_order :
    (∀ (v w : Nat) (a b : ExtendedKeyAttrs) (x y : Bytes),
      a.cmp b = .lt ↔
        ((layout v a.depth a.parentFingerprint.1 a.childNumber.n.toNat a.chainCode.1 x).drop 4).take 41 <
          ((layout w b.depth b.parentFingerprint.1 b.childNumber.n.toNat b.chainCode.1 y).drop 4).take 41) ∧
    (∀ a b : ExtendedKeyAttrs, (a.cmp b = .eq ↔ a = b) ∧ (a.cmp b = .gt ↔ b.cmp a = .lt)) ∧
    (∀ p q : Prefix, p.cmp q = .lt ↔ p.chars.1 ++ p.toBytes.1 < q.chars.1 ++ q.toBytes.1) ∧
    (∀ p q : Prefix, (p.cmp q = .eq ↔ p = q) ∧ (p.cmp q = .gt ↔ q.cmp p = .lt)) ∧
    (∀ c d : ChildNumber, (c.cmp d = .lt ↔ c.toBytes.1 < d.toBytes.1) ∧ (c.cmp d = .eq ↔ c = d) ∧
      (c.cmp d = .gt ↔ d.cmp c = .lt)) := by
  have hser : ∀ (v : Nat) (a : ExtendedKeyAttrs) (x : Bytes),
      ((layout v a.depth a.parentFingerprint.1 a.childNumber.n.toNat a.chainCode.1 x).drop 4).take 41 =
        [a.depth] ++ (a.parentFingerprint.1 ++ (a.childNumber.toBytes.1 ++ a.chainCode.1)) := by
    intro v a x
    have hc : be4 a.childNumber.n.toNat = a.childNumber.toBytes.1 := by rw [← be4_eq]; rfl
    unfold layout
    rw [hc]
    simp only [List.append_assoc]
    rw [List.drop_left' (by rfl : (be4 v).length = 4)]
    rw [show [a.depth] ++ (a.parentFingerprint.1 ++ (a.childNumber.toBytes.1 ++ (a.chainCode.1 ++ x))) =
      ([a.depth] ++ (a.parentFingerprint.1 ++ (a.childNumber.toBytes.1 ++ a.chainCode.1))) ++ x by simp]
    rw [List.take_left']
    simp [a.parentFingerprint.2, a.childNumber.toBytes.2, a.chainCode.2]
  have hlt : ∀ a b : ExtendedKeyAttrs, a.cmp b = .lt ↔
      [a.depth] ++ (a.parentFingerprint.1 ++ (a.childNumber.toBytes.1 ++ a.chainCode.1)) <
        [b.depth] ++ (b.parentFingerprint.1 ++ (b.childNumber.toBytes.1 ++ b.chainCode.1)) := by
    intro a b
    rw [append_lt_append (a := [a.depth]) (a' := [b.depth]) _ _ rfl, append_lt_append _ _ (a.parentFingerprint.2.trans b.parentFingerprint.2.symm),
      append_lt_append _ _ (a.childNumber.toBytes.2.trans b.childNumber.toBytes.2.symm)]
    unfold ExtendedKeyAttrs.cmp ChildNumber.cmp
    rw [then_lt, then_lt, then_lt, sliceCmp_lt, sliceCmp_lt, sliceCmp_eq]
    simp only [Nat.compare_eq_lt, Nat.compare_eq_eq]
    rw [u32_lt, List.cons_lt_cons_iff, UInt8.lt_iff_toNat_lt, UInt8.toNat_inj]
    have h0 : ¬ ([] : Bytes) < [] := by simp
    have h1 : (a.childNumber.n.toNat = b.childNumber.n.toNat) ↔ a.childNumber.toBytes.1 = b.childNumber.toBytes.1 := by
      constructor
      · intro h
        unfold ChildNumber.toBytes
        rw [BitVec.eq_of_toNat_eq h]
      · intro h
        have := congrArg ChildNumber.fromBytes (Subtype.ext h)
        rw [C24_child_number_bytes.1, C24_child_number_bytes.1] at this
        rw [this]
    have h2 : a.depth = b.depth ↔ [a.depth] = [b.depth] := by simp
    rw [h1, ← h2]
    simp only [h0, and_false, or_false]
    rfl
  have hplt : ∀ p q : Prefix, p.cmp q = .lt ↔ p.chars.1 ++ p.toBytes.1 < q.chars.1 ++ q.toBytes.1 := by
    intro p q
    rw [append_lt_append _ _ (p.chars.2.trans q.chars.2.symm)]
    unfold Prefix.cmp
    rw [then_lt, sliceCmp_lt, sliceCmp_eq, Nat.compare_eq_lt, u32_lt]
    rfl
  have heq : ∀ a b : ExtendedKeyAttrs, a.cmp b = .eq ↔ a = b := by
    intro a b
    unfold ExtendedKeyAttrs.cmp ChildNumber.cmp
    rw [then_eq, then_eq, then_eq, sliceCmp_eq, sliceCmp_eq, Nat.compare_eq_eq, Nat.compare_eq_eq, UInt8.toNat_inj]
    obtain ⟨ad, af, ⟨ac⟩, acc⟩ := a
    obtain ⟨bd, bf, ⟨bc⟩, bcc⟩ := b
    simp only [ExtendedKeyAttrs.mk.injEq, ChildNumber.mk.injEq, Subtype.ext_iff, BitVec.toNat_inj]
  have hpeq : ∀ p q : Prefix, p.cmp q = .eq ↔ p = q := by
    intro p q
    unfold Prefix.cmp
    rw [then_eq, sliceCmp_eq, Nat.compare_eq_eq]
    obtain ⟨pc, pv⟩ := p
    obtain ⟨qc, qv⟩ := q
    simp only [Prefix.mk.injEq, Subtype.ext_iff, BitVec.toNat_inj]
  refine ⟨?_, ?_, hplt, ?_, ?_⟩
  · intro p q a b x y
    rw [hser, hser]
    exact hlt a b
  · intro a b
    refine ⟨heq a b, ?_⟩
    have : a.cmp b = (b.cmp a).swap := by
      unfold ExtendedKeyAttrs.cmp ChildNumber.cmp
      rw [Ordering.swap_then, Ordering.swap_then, Ordering.swap_then, Nat.compare_swap, Nat.compare_swap,
        ← sliceCmp_swap, ← sliceCmp_swap]
    rw [this]
    cases b.cmp a <;> simp
  · intro p q
    refine ⟨hpeq p q, ?_⟩
    have : p.cmp q = (q.cmp p).swap := by
      unfold Prefix.cmp
      rw [Ordering.swap_then, Nat.compare_swap, ← sliceCmp_swap]
    rw [this]
    cases q.cmp p <;> simp
  · intro c d
    unfold ChildNumber.cmp
    refine ⟨?_, ?_, ?_⟩
    · rw [Nat.compare_eq_lt]
      exact u32_lt c.n d.n
    · rw [Nat.compare_eq_eq, BitVec.toNat_inj]
      obtain ⟨c⟩ := c
      obtain ⟨d⟩ := d
      simp
    · rw [Nat.compare_eq_gt, Nat.compare_eq_lt]

/-- The hypotheses-free statement on a concrete pair: the fingerprint decides before the child number does. -/
example : (ExtendedKeyAttrs.mk 1 ⟨[0, 0, 0, 1], rfl⟩ ⟨7⟩ ⟨List.replicate 32 0, rfl⟩).cmp
    (ExtendedKeyAttrs.mk 1 ⟨[0, 0, 1, 0], rfl⟩ ⟨3⟩ ⟨List.replicate 32 0, rfl⟩) = .lt := by decide

end Kms.Props
