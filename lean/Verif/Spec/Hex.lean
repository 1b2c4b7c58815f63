/-
Hexadecimal text, independent of the model.
-/
namespace Kms.Spec

/-- The value of a hex digit. -/
def hexVal (c : Char) : Option Nat :=
  if '0' ≤ c ∧ c ≤ '9' then some (c.toNat - '0'.toNat)
  else if 'a' ≤ c ∧ c ≤ 'f' then some (c.toNat - 'a'.toNat + 10)
  else if 'A' ≤ c ∧ c ≤ 'F' then some (c.toNat - 'A'.toNat + 10)
  else none

/-- Read two hex digits per byte, high digit first. -/
def unhex : List Char → Option (List UInt8)
  | [] => some []
  | a :: b :: rest => do
    let hi ← hexVal a
    let lo ← hexVal b
    let r ← unhex rest
    some (UInt8.ofNat (16 * hi + lo) :: r)
  | [_] => none

/-- The alphabet of `{:x}` and of `{:X}`. -/
def hexAlphabet (upper : Bool) : List Char :=
  if upper then "0123456789ABCDEF".toList else "0123456789abcdef".toList

end Kms.Spec
