import Verif.Model.GenericKeys
import Verif.Model.Equality
import Verif.Model.Order
/-
The derived comparisons (`derive(PartialEq, Eq, PartialOrd, Ord)`) of `ExtendedPublicKey<K>` for a key type `K` that has
them, and the derived `PartialOrd` of the types whose `Ord` is in `Verif.Model.Order`.
-/
namespace Kms

/-- What `derive(PartialOrd)` does with the next field: `Some(Equal)` goes on, anything else is the answer.
Used in the derived `PartialOrd` of src/bip32/extended_key/attrs.rs:7 and src/bip32/extended_key/extended_public_key.rs:23. -/
def thenPartial (a b : Option Ordering) : Option Ordering :=
  match a with
  | some .eq => b
  | x => x

/-- `PartialOrd for [u8]`: the elements in turn, then the lengths.
Used in the derived `PartialOrd` of src/bip32/extended_key/attrs.rs:7 and src/bip32/extended_key/extended_public_key.rs:23. -/
def slicePartialCmp : Bytes → Bytes → Option Ordering
  | [], [] => some .eq
  | [], _ :: _ => some .lt
  | _ :: _, [] => some .gt
  | a :: as, b :: bs => thenPartial (some (compare a.toNat b.toNat)) (slicePartialCmp as bs)

namespace Bip32

/-- src/bip32/child_number.rs:10-11 -/
def ChildNumber.partialCmp (a b : ChildNumber) : Option Ordering := some (compare a.n.toNat b.n.toNat)

/-- src/bip32/prefix.rs:23-31: `chars`, then `version`. -/
def Prefix.partialCmp (a b : Prefix) : Option Ordering :=
  thenPartial (slicePartialCmp a.chars.1 b.chars.1) (some (compare a.version.toNat b.version.toNat))

/-- src/bip32/extended_key/attrs.rs:7-20: `depth`, `parent_fingerprint`, `child_number`, `chain_code`. -/
def ExtendedKeyAttrs.partialCmp (a b : ExtendedKeyAttrs) : Option Ordering :=
  thenPartial (some (compare a.depth.toNat b.depth.toNat))
    (thenPartial (slicePartialCmp a.parentFingerprint.1 b.parentFingerprint.1)
      (thenPartial (a.childNumber.partialCmp b.childNumber) (slicePartialCmp a.chainCode.1 b.chainCode.1)))

namespace GPub
variable {K : KeyImpl}

/-- src/bip32/extended_key/extended_public_key.rs:23-30, `derive(PartialEq)`: `public_key`, `attrs`. -/
def eq (keyEq : K.PK → K.PK → Bool) (a b : GPub K) : Bool := keyEq a.publicKey b.publicKey && a.attrs.eq b.attrs

/-- src/bip32/extended_key/extended_public_key.rs:23-30, `derive(PartialOrd)`: `public_key`, then `attrs`. -/
def partialCmp (keyCmp : K.PK → K.PK → Option Ordering) (a b : GPub K) : Option Ordering :=
  thenPartial (keyCmp a.publicKey b.publicKey) (a.attrs.partialCmp b.attrs)

/-- src/bip32/extended_key/extended_public_key.rs:23-30, `derive(Ord)`: `public_key`, then `attrs`. -/
def cmp (keyCmp : K.PK → K.PK → Ordering) (a b : GPub K) : Ordering :=
  (keyCmp a.publicKey b.publicKey).then (a.attrs.cmp b.attrs)

end GPub
end Bip32
end Kms
