/-
Specification vocabulary for BIP39: bit strings, most significant bit first.
Independent of the model.
-/
namespace Kms.Spec

/-- The `w` low bits of `n`, most significant first. -/
def bitsOfNat (w n : Nat) : List Bool := (List.range w).map (fun i => n.testBit (w - 1 - i))

/-- The bits of a byte string, most significant bit of the first byte first. -/
def bitsOfBytes (bs : List UInt8) : List Bool := bs.flatMap (fun b => bitsOfNat 8 b.toNat)

/-- Big-endian value of a bit string. -/
def natOfBits (l : List Bool) : Nat := l.foldl (fun a b => 2 * a + b.toNat) 0

/-- Group `i` of size `w` of a bit string. -/
def group (w i : Nat) (l : List Bool) : List Bool := (l.drop (w * i)).take w

end Kms.Spec
