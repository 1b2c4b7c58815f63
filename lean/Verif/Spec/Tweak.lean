import Verif.Spec.Bip32
/-
What anyone who knows an extended public key can compute about a path of non-hardened numbers.
-/
namespace Kms.Spec.Bip32
open Kms.Spec.Secp (Point G n)

/-- The sum of the `I_L` met along the path, from the point and the chain code of the public parent alone. -/
def publicTweak (h : Hash) : List UInt8 → Point → List Nat → Nat
  | _, _, [] => 0
  | chain, K, i :: path =>
    let I := Ipub h chain K i
    IL I + publicTweak h (IR I) (K + IL I • G) path

end Kms.Spec.Bip32
