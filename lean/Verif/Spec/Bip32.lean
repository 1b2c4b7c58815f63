import Verif.Spec.Secp256k1
import Verif.Spec.Bip39
import Verif.Spec.ExtendedKey
/-
BIP32 key derivation, as the standard words it, over Mathlib's group of points of secp256k1, independent of the model.
-/
namespace Kms.Spec.Bip32
open Kms.Spec.Secp (Point G n)

/-- `ser256`: a number on 32 bytes, most significant first. -/
def ser256 (v : Nat) : List UInt8 := (List.range 32).map (fun i => UInt8.ofNat (v / 256 ^ (31 - i)))

/-- `ser32` -/
def ser32 (i : Nat) : List UInt8 := be4 i

/-- `parse256` -/
def parse256 (b : List UInt8) : Nat := bytesVal b

/-- `serP`: SEC1's compressed form of a point other than infinity. -/
def serP : Point → List UInt8
  | .zero => [0]
  | .some x y _ => (if y.val % 2 = 0 then 2 else 3) :: ser256 x.val

/-- The data hashed for the child `i` of the private key `k`: hardened children hash the private key, others the
public key. -/
def data (k i : Nat) : List UInt8 :=
  if 2 ^ 31 ≤ i then 0 :: ser256 k ++ ser32 i else serP (k • G) ++ ser32 i

/-- The three hash functions. -/
structure Hash where
  sha256 : List UInt8 → List UInt8
  sha512 : List UInt8 → List UInt8
  ripemd160 : List UInt8 → List UInt8

/-- `I = HMAC-SHA512(chain code, data)` for a private parent. -/
def I (h : Hash) (chain : List UInt8) (k i : Nat) : List UInt8 := hmac h.sha512 chain (data k i)

/-- `I = HMAC-SHA512(chain code, serP(K) ‖ ser32(i))` for a public parent. -/
def Ipub (h : Hash) (chain : List UInt8) (K : Point) (i : Nat) : List UInt8 := hmac h.sha512 chain (serP K ++ ser32 i)

/-- `I_L`, the left half, as a number. -/
def IL (I : List UInt8) : Nat := parse256 (I.take 32)
/-- `I_R`, the right half. -/
def IR (I : List UInt8) : List UInt8 := I.drop 32

/-- The first 32 bits of the key identifier. -/
def fingerprint (h : Hash) (K : Point) : List UInt8 := (h.ripemd160 (h.sha256 (serP K))).take 4

/-- Master key: `I = HMAC-SHA512("Bitcoin seed", seed)`. -/
def master (h : Hash) (seed : List UInt8) : List UInt8 :=
  hmac h.sha512 ("Bitcoin seed".toList.map (fun c => UInt8.ofNat c.toNat)) seed

end Kms.Spec.Bip32
