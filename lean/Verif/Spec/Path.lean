/-
Grammar of child numbers and derivation paths, independent of the model.
-/
namespace Kms.Spec

/-- A decimal digit and its value. -/
def IsDigit (c : Char) (d : Nat) : Prop := d < 10 ∧ c.toNat = '0'.toNat + d

/-- `s` is a non-empty run of decimal digits with value `v`. -/
inductive Decimal : List Char → Nat → Prop
  | one (c : Char) (d : Nat) : IsDigit c d → Decimal [c] d
  | snoc (s : List Char) (v : Nat) (c : Char) (d : Nat) : Decimal s v → IsDigit c d → Decimal (s ++ [c]) (10 * v + d)

/-- `s` denotes the child with index `i`, hardened or not: an optional `+`, decimal digits of value `i` below 2^31, an
apostrophe if hardened. -/
def ChildText (s : List Char) (i : Nat) (hardened : Bool) : Prop :=
  ∃ sign digits, (sign = [] ∨ sign = ['+']) ∧ Decimal digits i ∧ i < 2 ^ 31 ∧
    s = sign ++ digits ++ (if hardened then ['\''] else [])

end Kms.Spec
