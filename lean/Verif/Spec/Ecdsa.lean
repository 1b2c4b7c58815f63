import Verif.Spec.Bip32
/-
ECDSA over secp256k1 (SEC 1, sections 4.1.4 and 4.1.6) and its deterministic nonces (RFC 6979, section 3.2), over
Mathlib's group of points, independent of the model.
-/
namespace Kms.Spec.Ecdsa
open Kms.Spec.Secp (Point G n HasCoords)
open Kms.Spec.Bip32 (ser256 parse256)

/-- SEC 1, 4.1.4: (r, s) is a signature of the message value `m` for the public key `Q`: r and s are in [1, n - 1]
and, with w = 1/s modulo n, the point (m w) G + (r w) Q has an x coordinate congruent to r modulo n. -/
def Verifies (Q : Point) (m r s : Nat) : Prop :=
  0 < r ∧ r < n ∧ 0 < s ∧ s < n ∧
  ∃ w x y, s * w % n = 1 ∧ HasCoords ((m * w) • G + (r * w) • Q) x y ∧ x % n = r

/-- SEC 1, 4.1.6: the recovery id `v` (bit 1: the x coordinate is r + n rather than r; bit 0: the y coordinate is odd)
picks a point R, and `Q` is the public key (1/r) (s R - m G). -/
def Recovers (Q : Point) (m r s v : Nat) : Prop :=
  v < 4 ∧ ∃ R x y w, HasCoords R x y ∧ x = r + n * (v / 2) ∧ y % 2 = v % 2 ∧ r * w % n = 1 ∧
    Q = w • (s • R - m • G)

/-- HMAC (RFC 2104) with 64-byte blocks. -/
def hmac64 (h : List UInt8 → List UInt8) (key m : List UInt8) : List UInt8 :=
  let k0 := if key.length > 64 then h key else key
  let pad (x : UInt8) := (List.range 64).map (fun i => k0.getD i 0 ^^^ x)
  h (pad 0x5c ++ h (pad 0x36 ++ m))

/-- RFC 6979, 3.2, steps b to g: the values of K and V for the private key `x` and the hash value `h` of the message;
`int2octets(x)` is `ser256 x` and `bits2octets(h)` is `ser256 (h mod n)`. -/
def init (mac : List UInt8 → List UInt8 → List UInt8) (x h : Nat) : List UInt8 × List UInt8 :=
  let V := List.replicate 32 1
  let K := List.replicate 32 0
  let K := mac K (V ++ [0] ++ ser256 x ++ ser256 (h % n))
  let V := mac K V
  let K := mac K (V ++ [1] ++ ser256 x ++ ser256 (h % n))
  let V := mac K V
  (K, V)

/-- Step h: K and V before the attempt number `j`; after a failed attempt (whose V is `mac K V`) K and V change once
more. -/
def state (mac : List UInt8 → List UInt8 → List UInt8) (x h : Nat) : Nat → List UInt8 × List UInt8
  | 0 => init mac x h
  | j + 1 =>
    let K := (state mac x h j).1
    let V := mac K (state mac x h j).2
    let K' := mac K (V ++ [0])
    (K', mac K' V)

/-- The number tried in the attempt number `j`. -/
def candidate (mac : List UInt8 → List UInt8 → List UInt8) (x h j : Nat) : Nat :=
  parse256 (mac (state mac x h j).1 (state mac x h j).2)

/-- (r, s) with recovery id `v` is the signature of the message value `m` by the private key `d` with the nonce `k` or
its negative, whichever makes s at most n/2: for that nonce k', r is the x coordinate of k' G modulo n, and
k' s = m + r d modulo n; bit 0 of `v` is the parity of the y coordinate, bit 1 says that the x coordinate is not below n. -/
def Signature (d m k r s v : Nat) : Prop :=
  0 < s ∧ s ≤ n / 2 ∧ ∃ k' x y, (k' = k ∨ k' = n - k) ∧ HasCoords (k' • G) x y ∧ r = x % n ∧
    v = (if n ≤ x then 2 else 0) + y % 2 ∧ k' * s % n = (m + r * d) % n

/-- The number `k` cannot serve as a nonce: it is out of range, or s would be 0. -/
def Unusable (d m k : Nat) : Prop :=
  k = 0 ∨ n ≤ k ∨ ∃ x y, HasCoords (k • G) x y ∧ n ∣ m + x % n * d

end Kms.Spec.Ecdsa
