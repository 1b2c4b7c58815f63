import Verif.Spec.Bip32
/-
Which 78 bytes BIP32 calls a valid extended key ("Serialization format" and the invalid keys of its test vector 5),
independent of the model.
-/
namespace Kms.Spec.Bip32
open Kms.Spec.Secp (Point n)

/-- The versions that BIP32 defines for private keys: main network and test network. -/
def privateVersions : List Nat := [0x0488ADE4, 0x04358394]

/-- The versions that BIP32 defines for public keys: main network and test network. -/
def publicVersions : List Nat := [0x0488B21E, 0x043587CF]

/-- A key of depth zero has no parent: its parent fingerprint and its child number are zero. -/
def RootHasNoParent (depth : UInt8) (fingerprint : List UInt8) (child : Nat) : Prop :=
  depth = 0 → fingerprint = [0, 0, 0, 0] ∧ child = 0

/-- A valid extended private key: a private version, `0 || ser256(k)` with `0 < k < n`, no parent at depth zero. -/
def ValidPrivate (payload : List UInt8) : Prop :=
  ∃ version depth fingerprint child chain k,
    payload = layout version depth fingerprint child chain (0 :: ser256 k) ∧
    fingerprint.length = 4 ∧ child < 2 ^ 32 ∧ chain.length = 32 ∧
    version ∈ privateVersions ∧ 0 < k ∧ k < n ∧ RootHasNoParent depth fingerprint child

/-- A valid extended public key: a public version, `serP(Q)` with `Q` a finite point of the curve, no parent at depth
zero. -/
def ValidPublic (payload : List UInt8) : Prop :=
  ∃ version depth fingerprint child chain Q,
    payload = layout version depth fingerprint child chain (serP Q) ∧
    fingerprint.length = 4 ∧ child < 2 ^ 32 ∧ chain.length = 32 ∧
    version ∈ publicVersions ∧ Q ≠ 0 ∧ RootHasNoParent depth fingerprint child

end Kms.Spec.Bip32
