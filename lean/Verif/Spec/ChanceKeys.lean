import Verif.Spec.Chance
import Verif.Model.Keys
/-
Derivation along a path with ideal hash functions.
-/
namespace Kms.Spec
open Bip32

/-- A derivation along a path in which every step draws its hash functions anew from `R`; it stops at the first failure,
as `derive_from_path` does. -/
noncomputable def walk (R : PMF Hashes) : XPrv → List ChildNumber → PMF (Res Error XPrv)
  | k, [] => PMF.pure (.ok k)
  | k, i :: p => R.bind fun H =>
    match k.deriveChild H i with
    | .ok c => walk R c p
    | .err e => PMF.pure (.err e)
    | .panic => PMF.pure .panic

end Kms.Spec
