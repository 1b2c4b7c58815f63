import Verif.Model.Secp256k1
/-
n G = 0 on secp256k1, by computation in the kernel with the functions of the model.  (About half a minute.)
-/
namespace Kms.Secp

theorem order_check : mul 256 n G = none := by decide +kernel

end Kms.Secp
