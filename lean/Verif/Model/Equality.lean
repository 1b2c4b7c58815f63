import Verif.Model.Keys
/-
The derived equalities (`derive(PartialEq)`): all fields, in the order they are declared.
-/
namespace Kms.Bip32

/-- src/bip32/child_number.rs:10-11 -/
def ChildNumber.eq (a b : ChildNumber) : Bool := a.n == b.n

/-- src/bip32/prefix.rs:23-31: `chars`, `version`. -/
def Prefix.eq (a b : Prefix) : Bool := (a.chars.1 == b.chars.1) && (a.version == b.version)

/-- `PartialEq for Vec<ChildNumber>`: the lengths, then the elements.
Used in the derived `PartialEq` of src/bip32/derivation_path.rs:15. -/
def childrenEq (a b : List ChildNumber) : Bool := (a.length == b.length) && (a.zip b).all (fun x => x.1.eq x.2)

/-- src/bip32/derivation_path.rs:15-18: `path`. -/
def DerivationPath.eq (a b : DerivationPath) : Bool := childrenEq a.path b.path

/-- src/bip32/extended_key/attrs.rs:7-20: `depth`, `parent_fingerprint`, `child_number`, `chain_code`. -/
def ExtendedKeyAttrs.eq (a b : ExtendedKeyAttrs) : Bool :=
  (a.depth == b.depth) && (a.parentFingerprint.1 == b.parentFingerprint.1) && a.childNumber.eq b.childNumber &&
    (a.chainCode.1 == b.chainCode.1)

/-- `PartialEq` of `libsecp256k1::PublicKey`: the affine coordinates (points at infinity do not occur, `C37`).
Used in the derived `PartialEq` of src/bip32/extended_key/extended_public_key.rs:23. -/
def PublicKey.eq (a b : Secp.PublicKey) : Bool := (a.x == b.x) && (a.y == b.y)

/-- src/bip32/extended_key/extended_public_key.rs:23-30: `public_key`, `attrs`. -/
def XPub.eq (a b : XPub) : Bool := PublicKey.eq a.publicKey b.publicKey && a.attrs.eq b.attrs

end Kms.Bip32
