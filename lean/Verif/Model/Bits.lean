import Verif.Model.Prelude
/-
src/bip39/util.rs: `BitWriter`, `BitIter`, `checksum`.
Registers keep their machine width: `u32` is `BitVec 32`, `u64` is `BitVec 64`, `u16` is `BitVec 16`.
-/
namespace Kms.Bip39

/-- src/bip39/util.rs:80-101 `Bits11(u16)`; `SIZE = 11`. Nothing forces the value below 2048. -/
abbrev Bits11 := BitVec 16

/-- src/bip39/util.rs:103-107 -/
structure BitWriter where
  offset : Nat
  remainder : BitVec 32
  inner : Bytes
  deriving DecidableEq, Repr

namespace BitWriter

/-- src/bip39/util.rs:110-122 `with_capacity` (the capacity only pre-allocates). -/
def withCapacity : BitWriter := { offset := 0, remainder := 0, inner := [] }

/-- src/bip39/util.rs:130-134: the flushing loop `while self.offset >= 8` (first argument: `offset`). -/
def flush : Nat → BitVec 32 → Bytes → BitWriter
  | offset + 8, remainder, inner =>
    flush offset (remainder <<< 8) (inner ++ [UInt8.ofBitVec ((remainder >>> 24).setWidth 8)])
  | offset, remainder, inner => { offset, remainder, inner }

/-- src/bip39/util.rs:124-135 `push` at `B = Bits11` (`B::SIZE = 11`, so `shift = 21`). -/
def push (w : BitWriter) (source : Bits11) : BitWriter :=
  flush (w.offset + 11) (w.remainder ||| (((source.setWidth 32) <<< (32 - 11)) >>> w.offset)) w.inner

/-- src/bip39/util.rs:137-139 -/
def len (w : BitWriter) : Nat := w.inner.length * 8 + w.offset

/-- src/bip39/util.rs:141-147 -/
def intoBytes (w : BitWriter) : Bytes :=
  if w.offset ≠ 0 then w.inner ++ [UInt8.ofBitVec ((w.remainder >>> 24).setWidth 8)] else w.inner

end BitWriter

/-- src/bip39/util.rs:150-155, at `In = &u8` (`SIZE = 8`), `Out = Bits11` (`SIZE = 11`);
`source` is the list of bytes not yet pulled from the source iterator. -/
structure BitIter where
  source : Bytes
  read : Nat
  buffer : BitVec 64
  deriving DecidableEq, Repr

namespace BitIter

/-- src/bip39/util.rs:163-172 -/
def new (source : Bytes) : BitIter := { source, read := 0, buffer := 0 }

/-- src/bip39/util.rs:184-189: `while self.read < Out::SIZE`, leaving with `None` when the source is
exhausted (`?`). -/
def fill : Bytes → Nat → BitVec 64 → Option BitIter
  | [], read, buffer => if read < 11 then none else some { source := [], read, buffer }
  | b :: rest, read, buffer =>
    if read < 11 then
      fill rest (read + 8) (buffer ||| ((b.toBitVec.setWidth 64) <<< (64 - (read + 8))))
    else some { source := b :: rest, read, buffer }

/-- src/bip39/util.rs:183-197 `next` -/
def next (it : BitIter) : Option (Bits11 × BitIter) :=
  match fill it.source it.read it.buffer with
  | none => none
  | some it' =>
    some ((it'.buffer >>> (64 - 11)).setWidth 16,
      { it' with buffer := it'.buffer <<< 11, read := it'.read - 11 })

/-- Running the iterator until it returns `None` (`Iterator::map` + `join` consume it this way).
The first argument bounds the number of calls; `toList` passes a bound that is always enough,
because every successful call consumes 11 of the available bits.  Used in src/bip39/mnemonic.rs:115-117. -/
def toListFuel : Nat → BitIter → List Bits11
  | 0, _ => []
  | fuel + 1, it =>
    match it.next with
    | none => []
    | some (v, it') => v :: toListFuel fuel it'

/-- All values the iterator yields.  Used in src/bip39/mnemonic.rs:115-117. -/
def toList (it : BitIter) : List Bits11 := toListFuel (it.source.length * 8 + it.read) it

end BitIter

/-- src/bip39/util.rs:210-214 `checksum(source, bits)`: `source >> (8 - bits)` on `u8`.
`8 - bits` underflows for `bits > 8` and a `u8` shift by 8 overflows (`bits = 0`); both panic in
checked builds. -/
def checksum (source : UInt8) (bits : Nat) : Res Unit UInt8 :=
  if 1 ≤ bits ∧ bits ≤ 8 then .ok (UInt8.ofBitVec (source.toBitVec >>> (8 - bits))) else .panic

end Kms.Bip39
