import Verif.Model.ExtendedKey
/-
The derived orders (`derive(PartialOrd, Ord)`): fields are compared in the order they are declared.
-/
namespace Kms

/-- `Ord for [u8]`, which `Ord for [u8; N]` uses: lexicographic.
Used in the derived `Ord` of src/bip32/prefix.rs:23 and src/bip32/extended_key/attrs.rs:7. -/
def sliceCmp : Bytes → Bytes → Ordering
  | [], [] => .eq
  | [], _ :: _ => .lt
  | _ :: _, [] => .gt
  | a :: as, b :: bs => (compare a.toNat b.toNat).then (sliceCmp as bs)

namespace Bip32

/-- src/bip32/child_number.rs:10-11 -/
def ChildNumber.cmp (a b : ChildNumber) : Ordering := compare a.n.toNat b.n.toNat

/-- src/bip32/prefix.rs:23-31: `chars`, then `version`. -/
def Prefix.cmp (a b : Prefix) : Ordering :=
  (sliceCmp a.chars.1 b.chars.1).then (compare a.version.toNat b.version.toNat)

/-- src/bip32/extended_key/attrs.rs:7-20: `depth`, `parent_fingerprint`, `child_number`, `chain_code`. -/
def ExtendedKeyAttrs.cmp (a b : ExtendedKeyAttrs) : Ordering :=
  (compare a.depth.toNat b.depth.toNat).then
    ((sliceCmp a.parentFingerprint.1 b.parentFingerprint.1).then
      ((a.childNumber.cmp b.childNumber).then (sliceCmp a.chainCode.1 b.chainCode.1)))

end Bip32
end Kms
