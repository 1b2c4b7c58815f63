import Verif.Spec.Base58
/-
BIP32 serialisation format, independent of the model.
-/
namespace Kms.Spec

/-- A number below 2^32 on four bytes, most significant first. -/
def be4 (v : Nat) : List UInt8 :=
  [UInt8.ofNat (v / 16777216), UInt8.ofNat (v / 65536), UInt8.ofNat (v / 256), UInt8.ofNat v]

/-- The payload of an extended key: version, depth, parent fingerprint, child number, chain code, key. -/
def layout (version : Nat) (depth : UInt8) (fingerprint : List UInt8) (child : Nat) (chain key : List UInt8) :
    List UInt8 :=
  be4 version ++ [depth] ++ fingerprint ++ be4 child ++ chain ++ key

/-- An ASCII letter. -/
def Letter (c : Char) : Prop := ('a' ≤ c ∧ c ≤ 'z') ∨ ('A' ≤ c ∧ c ≤ 'Z')

end Kms.Spec
