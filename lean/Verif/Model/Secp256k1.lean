import Verif.Model.Prelude
/-
Crate libsecp256k1 0.7.1, as used by src/bip32/private_key.rs, src/bip32/public_key.rs and src/lib.rs.
Simplification: field elements and scalars are natural numbers in canonical (reduced) form, where the crate uses limbs
with lazy normalisation; points are affine, where the crate computes in Jacobian coordinates and converts at the end;
scalar multiplication is double-and-add, where the crate uses windows and precomputed tables.  The values computed are
the same elements.
-/
namespace Kms.Secp

/-- Modular exponentiation by squaring; `fuel` bounds the number of bits.
Used in src/bip32/private_key.rs:32-58 and src/bip32/public_key.rs:37-56 and src/lib.rs:15-17. -/
def powMod : Nat → Nat → Nat → Nat → Nat
  | 0, _, _, m => 1 % m
  | fuel + 1, a, e, m =>
    if e = 0 then 1 % m
    else
      let h := powMod fuel (a * a % m) (e / 2) m
      if e % 2 = 1 then a * h % m else h

/-- The field size.  Used in src/bip32/private_key.rs:32-58 and src/bip32/public_key.rs:37-56 and src/lib.rs:15-17. -/
def p : Nat := 0xFFFFFFFFFFFFFFFFFFFFFFFFFFFFFFFFFFFFFFFFFFFFFFFFFFFFFFFEFFFFFC2F
/-- The group order.  Used in src/bip32/private_key.rs:32-58 and src/bip32/public_key.rs:37-56 and src/lib.rs:15-17. -/
def n : Nat := 0xFFFFFFFFFFFFFFFFFFFFFFFFFFFFFFFEBAAEDCE6AF48A03BBFD25E8CD0364141
/-- The generator (`AFFINE_G`).
Used in src/bip32/private_key.rs:32-58 and src/bip32/public_key.rs:37-56 and src/lib.rs:15-17. -/
def gx : Nat := 0x79BE667EF9DCBBAC55A06295CE870B07029BFCDB2DCE28D959F2815B16F81798
/-- The y coordinate of the generator. Used in src/bip32/private_key.rs:32-58 and src/bip32/public_key.rs:37-56 and
src/lib.rs:15-17. -/
def gy : Nat := 0x483ADA7726A3C4655DA4FBFC0E1108A8FD17B448A68554199C47D08FFB10D4B8

/-- field operations.  Used in src/bip32/private_key.rs:32-58 and src/bip32/public_key.rs:37-56 and src/lib.rs:15-17. -/
def addM (a b : Nat) : Nat := (a + b) % p
/-- field subtraction. Used in src/bip32/private_key.rs:32-58 and src/bip32/public_key.rs:37-56 and src/lib.rs:15-17. -/
def subM (a b : Nat) : Nat := (a + (p - b)) % p
/-- field multiplication. Used in src/bip32/private_key.rs:32-58 and src/bip32/public_key.rs:37-56 and src/lib.rs:15-17. -/
def mulM (a b : Nat) : Nat := a * b % p
/-- `Field::inv`: power p - 2.
Used in src/bip32/private_key.rs:32-58 and src/bip32/public_key.rs:37-56 and src/lib.rs:15-17. -/
def invM (a : Nat) : Nat := powMod 256 a (p - 2) p

/-- A point: `none` is infinity (`Affine` with its flag, or `Jacobian`).
Used in src/bip32/private_key.rs:32-58 and src/bip32/public_key.rs:37-56 and src/lib.rs:15-17. -/
abbrev Pt := Option (Nat × Nat)

/-- third point of the line with slope `l` through the first point, reflected.
Used in src/bip32/private_key.rs:32-58 and src/bip32/public_key.rs:37-56 and src/lib.rs:15-17. -/
def chord (l x1 y1 x2 : Nat) : Pt :=
  let x3 := subM (subM (mulM l l) x1) x2
  let y3 := subM (mulM l (subM x1 x3)) y1
  some (x3, y3)

/-- point addition.  Used in src/bip32/private_key.rs:32-58 and src/bip32/public_key.rs:37-56 and src/lib.rs:15-17. -/
def add : Pt → Pt → Pt
  | none, Q => Q
  | P, none => P
  | some (x1, y1), some (x2, y2) =>
    if x1 = x2 then
      if addM y1 y2 = 0 then none
      else chord (mulM (mulM 3 (mulM x1 x1)) (invM (addM y1 y1))) x1 y1 x2
    else chord (mulM (subM y1 y2) (invM (subM x1 x2))) x1 y1 x2

/-- scalar multiplication; `fuel` bounds the number of bits.
Used in src/bip32/private_key.rs:32-58 and src/bip32/public_key.rs:37-56 and src/lib.rs:15-17. -/
def mul : Nat → Nat → Pt → Pt
  | 0, _, _ => none
  | fuel + 1, k, P =>
    if k = 0 then none
    else
      let h := mul fuel (k / 2) (add P P)
      if k % 2 = 1 then add P h else h

/-- The generator.  Used in src/bip32/private_key.rs:32-58 and src/bip32/public_key.rs:37-56 and src/lib.rs:15-17. -/
def G : Pt := some (gx, gy)

/-- `libsecp256k1::Error`, the variants that occur.
Turned into an error of the library at src/bip32/error.rs:101-105 and src/error.rs:5. -/
inductive Error where
  | invalidSignature | invalidPublicKey | invalidSecretKey | invalidRecoveryId | invalidMessage | invalidInputLength
  | tweakOutOfRange
  deriving DecidableEq, Repr

/-- `SecretKey(Scalar)`: every constructor of the crate refuses zero.  The key type of src/bip32/private_key.rs:32. -/
structure SecretKey where
  k : Nat
  pos : 0 < k
  lt : k < n
  deriving DecidableEq

namespace SecretKey

/-- `SecretKey::parse`.  Used in src/bip32/private_key.rs:36, 48 and src/bip32/public_key.rs:51. -/
def parse (b : ByteArr 32) : Res Error SecretKey :=
  let v := beNat b.1
  if h : 0 < v ∧ v < n then .ok ⟨v, h.1, h.2⟩ else .err .invalidSecretKey

/-- `SecretKey::serialize`.  Used in src/bip32/private_key.rs:43. -/
def serialize (s : SecretKey) : ByteArr 32 := ⟨natBE 32 s.k, by simp⟩

/-- `SecretKey::tweak_add_assign`: the new value.  Used in src/bip32/private_key.rs:48. -/
def tweakAdd (s t : SecretKey) : Res Error SecretKey :=
  let v := (s.k + t.k) % n
  if h : 0 < v then .ok ⟨v, h, Nat.mod_lt _ (Nat.lt_trans s.pos s.lt)⟩ else .err .tweakOutOfRange

end SecretKey

/-- `PublicKey(Affine)`: the coordinates.  The crate never makes one at infinity (`C37`).
The key type of src/bip32/public_key.rs:37. -/
structure PublicKey where
  x : Nat
  y : Nat
  deriving DecidableEq, Repr

namespace PublicKey

/-- The public key of a point; infinity (unreachable) is given coordinates 0.
Used in src/bip32/private_key.rs:32-58 and src/bip32/public_key.rs:37-56. -/
def ofPt : Pt → PublicKey
  | some (x, y) => ⟨x, y⟩
  | none => ⟨0, 0⟩

/-- The point.  Used in src/bip32/private_key.rs:32-58 and src/bip32/public_key.rs:37-56. -/
def pt (P : PublicKey) : Pt := some (P.x, P.y)

/-- `PublicKey::from_secret_key`.  Used in src/bip32/private_key.rs:55. -/
def fromSecretKey (s : SecretKey) : PublicKey := ofPt (mul 256 s.k G)

/-- `PublicKey::serialize_compressed`.  Used in src/bip32/public_key.rs:46. -/
def serializeCompressed (P : PublicKey) : ByteArr 33 :=
  ⟨(if P.y % 2 = 1 then 3 else 2) :: natBE 32 P.x, by simp⟩

/-- `Field::sqrt`: power (p + 1) / 4.  Used in src/bip32/public_key.rs:39. -/
def sqrtM (a : Nat) : Nat := powMod 256 a ((p + 1) / 4) p

/-- x^3 + 7.  Used in src/bip32/public_key.rs:39. -/
def rhs (x : Nat) : Nat := addM (mulM (mulM x x) x) 7

/-- `Affine::set_xo_var`: the y coordinate with the given parity (of no meaning if x^3 + 7 is not a square).
Used in src/bip32/public_key.rs:39. -/
def setXo (x : Nat) (odd : Bool) : Nat :=
  let r := sqrtM (rhs x)
  if (r % 2 == 1) == odd then r else subM 0 r

/-- `PublicKey::parse_compressed` after cutting the tag byte from the x coordinate: range check of x, `set_xo_var`,
`Affine::is_valid_var`.  Used in src/bip32/public_key.rs:39. -/
def parseParts (tag : UInt8) (x : Nat) : Res Error PublicKey :=
  if !(tag == 2 || tag == 3) then .err .invalidPublicKey
  else if p ≤ x then .err .invalidPublicKey
  else
    let y := setXo x (tag == 3)
    if mulM y y = rhs x then .ok ⟨x, y⟩ else .err .invalidPublicKey

/-- `PublicKey::parse_compressed`.  Used in src/bip32/public_key.rs:39. -/
def parseCompressed (b : ByteArr 33) : Res Error PublicKey := parseParts (b.1.headD 0) (beNat b.1.tail)

/-- `PublicKey::tweak_add_assign`: the new value.  Used in src/bip32/public_key.rs:51. -/
def tweakAdd (P : PublicKey) (t : SecretKey) : Res Error PublicKey :=
  match add P.pt (mul 256 t.k G) with
  | some (x, y) => .ok ⟨x, y⟩
  | none => .err .tweakOutOfRange

end PublicKey
end Kms.Secp
