import Verif.Spec.Ecdsa
/-
Collisions of hash functions among given inputs, and the inputs that HMAC, PBKDF2 and RFC 6979 hash.  (A hash function has
more inputs than digests and so always has collisions; what matters is whether they occur among inputs that are hashed.)
-/
namespace Kms.Spec
open Kms.Spec.Bip32 Kms.Spec.Ecdsa
open Kms.Spec.Secp (n)

/-- Two different inputs, one of each list, for which `f` has the same value. -/
def Collides {β : Type} (f : List UInt8 → β) (l l' : List (List UInt8)) : Prop := ∃ a ∈ l, ∃ b ∈ l', a ≠ b ∧ f a = f b

/-- What HMAC with blocks of `B` bytes hashes: the key if it is longer than a block, then two padded messages. -/
def hmacHashes (B : Nat) (h : List UInt8 → List UInt8) (key m : List UInt8) : List (List UInt8) :=
  let k0 := if key.length > B then h key else key
  let pad (x : UInt8) := (List.range B).map (fun i => k0.getD i 0 ^^^ x)
  (if key.length > B then [key] else []) ++ [pad 0x36 ++ m, pad 0x5c ++ h (pad 0x36 ++ m)]

/-- What the rounds 0 to `j` of PBKDF2 hash. -/
def roundHashes (h : List UInt8 → List UInt8) (p s : List UInt8) : Nat → List (List UInt8)
  | 0 => hmacHashes 128 h p (s ++ [0, 0, 0, 1])
  | j + 1 => roundHashes h p s j ++ hmacHashes 128 h p (pbkdf2U (hmac h) p s j)

/-- What the steps b to g of RFC 6979 hash for the private key `x` and the message value `m`. -/
def initHashes (h : List UInt8 → List UInt8) (x m : Nat) : List (List UInt8) :=
  let V := List.replicate 32 1
  let K := List.replicate 32 0
  let m0 := V ++ [0] ++ ser256 x ++ ser256 (m % n)
  let K1 := hmac64 h K m0
  let V1 := hmac64 h K1 V
  let m1 := V1 ++ [1] ++ ser256 x ++ ser256 (m % n)
  let K2 := hmac64 h K1 m1
  hmacHashes 64 h K m0 ++ hmacHashes 64 h K1 V ++ hmacHashes 64 h K1 m1 ++ hmacHashes 64 h K2 V1

/-- What RFC 6979 hashes up to the attempt number `j`. -/
def nonceHashes (h : List UInt8 → List UInt8) (x m : Nat) : Nat → List (List UInt8)
  | 0 => initHashes h x m ++ hmacHashes 64 h (state (hmac64 h) x m 0).1 (state (hmac64 h) x m 0).2
  | j + 1 =>
    let K := (state (hmac64 h) x m j).1
    let V := hmac64 h K (state (hmac64 h) x m j).2
    nonceHashes h x m j ++ hmacHashes 64 h K (V ++ [0]) ++ hmacHashes 64 h (hmac64 h K (V ++ [0])) V ++
      hmacHashes 64 h (state (hmac64 h) x m (j + 1)).1 (state (hmac64 h) x m (j + 1)).2

end Kms.Spec
