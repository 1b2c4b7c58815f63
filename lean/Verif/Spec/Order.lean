/-
What Rust asks of implementations of `PartialEq`, `PartialOrd` and `Ord` of one type (documentation of `std::cmp`).
-/
namespace Kms.Spec

/-- The three comparisons of a type agree and make a total order. -/
structure LawfulOrd {α : Type} (eq : α → α → Bool) (partialCmp : α → α → Option Ordering) (cmp : α → α → Ordering) : Prop where
  /-- `a == b` exactly if `a.cmp(b)` is `Equal`. -/
  eq_iff : ∀ a b, eq a b = true ↔ cmp a b = .eq
  /-- `a.partial_cmp(b)` is `Some(a.cmp(b))`. -/
  total : ∀ a b, partialCmp a b = some (cmp a b)
  /-- `a == a`. -/
  refl : ∀ a, cmp a a = .eq
  /-- `a < b` exactly if `b > a`, and `a == b` exactly if `b == a`. -/
  dual : ∀ a b, cmp b a = (cmp a b).swap
  /-- `<` is transitive. -/
  lt_trans : ∀ a b c, cmp a b = .lt → cmp b c = .lt → cmp a c = .lt
  /-- Equal values compare alike with every third. -/
  congr : ∀ a b c, cmp a b = .eq → cmp a c = cmp b c

end Kms.Spec
