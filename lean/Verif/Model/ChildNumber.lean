import Verif.Model.Text
/-
src/bip32/error.rs, src/bip32/child_number.rs, src/bip32/derivation_path.rs
-/
namespace Kms.Bip32

/-- src/bip32/error.rs:14-35 (`Bip39` is never constructed by the crate). -/
inductive Error where
  | base58 | bip39 | childNumber | crypto | decode | depth | seedLength
  deriving DecidableEq, Repr

/-- src/bip32/error.rs:37-49 `Display` -/
def Error.display : Error → Str
  | base58 => "base58 error".toList
  | bip39 => "bip39 error".toList
  | childNumber => "invalid child number".toList
  | crypto => "cryptographic error".toList
  | decode => "decoding error".toList
  | depth => "maximum derivation depth exceeded".toList
  | seedLength => "seed length invalid".toList

/-- src/bip32/child_number.rs:11 `ChildNumber(pub u32)` -/
structure ChildNumber where
  n : BitVec 32
  deriving DecidableEq, Repr

namespace ChildNumber

/-- src/bip32/child_number.rs:18 -/
def HARDENED_FLAG : BitVec 32 := 1#32 <<< 31

/-- src/bip32/child_number.rs:23-31 `new` -/
def new (index : BitVec 32) (hardened : Bool) : Res Error ChildNumber :=
  if index ≥ HARDENED_FLAG then .err .childNumber
  else if hardened then .ok ⟨index ||| HARDENED_FLAG⟩
  else .ok ⟨index⟩

/-- src/bip32/child_number.rs:34-36 `from_bytes` -/
def fromBytes (bytes : ByteArr 4) : ChildNumber := ⟨u32FromBE bytes⟩

/-- src/bip32/child_number.rs:39-41 `to_bytes` -/
def toBytes (c : ChildNumber) : ByteArr 4 := u32ToBE c.n

/-- src/bip32/child_number.rs:45-47 `index` -/
def index (c : ChildNumber) : BitVec 32 := c.n &&& ~~~HARDENED_FLAG

/-- src/bip32/child_number.rs:50-52 `is_hardened` -/
def isHardened (c : ChildNumber) : Bool := c.n &&& HARDENED_FLAG != 0

/-- src/bip32/child_number.rs:55-65 `Display` -/
def display (c : ChildNumber) : Str :=
  decimal c.index.toNat ++ (if c.isHardened then ['\''] else [])

/-- src/bip32/child_number.rs:79-91 `from_str` -/
def fromStr (child : Str) : Res Error ChildNumber :=
  let (child, hardened) := stripApostrophe child
  match parseU32 child with
  | none => .err .childNumber
  | some index => new (BitVec.ofNat 32 index) hardened

/-- `#[derive(Default)]`, src/bip32/child_number.rs:10 -/
def default : ChildNumber := ⟨0⟩

end ChildNumber

/-- src/bip32/derivation_path.rs:16-18; the field is private. -/
structure DerivationPath where
  path : List ChildNumber
  deriving DecidableEq, Repr

namespace DerivationPath

/-- `#[derive(Default)]`, src/bip32/derivation_path.rs:15 -/
def default : DerivationPath := ⟨[]⟩

/-- src/bip32/derivation_path.rs:22-24 `iter`, :52-56 `as_ref`, :96-103 `into_iter`: the sequence of items. -/
def iter (p : DerivationPath) : List ChildNumber := p.path

/-- src/bip32/derivation_path.rs:27-29 `is_empty` -/
def isEmpty (p : DerivationPath) : Bool := p.path.isEmpty

/-- src/bip32/derivation_path.rs:32-34 `len` -/
def len (p : DerivationPath) : Nat := p.path.length

/-- `usize::checked_sub`.  Used in src/bip32/derivation_path.rs:40. -/
def checkedSub (a b : Nat) : Option Nat := if b ≤ a then some (a - b) else none

/-- src/bip32/derivation_path.rs:39-45 `parent` -/
def parent (p : DerivationPath) : Option DerivationPath :=
  (checkedSub p.path.length 1).map fun n => ⟨p.path.take n⟩

/-- src/bip32/derivation_path.rs:48-50 `push` -/
def push (p : DerivationPath) (c : ChildNumber) : DerivationPath := ⟨p.path ++ [c]⟩

/-- src/bip32/derivation_path.rs:70-77 `extend` -/
def extend (p : DerivationPath) (cs : List ChildNumber) : DerivationPath := ⟨p.path ++ cs⟩

/-- src/bip32/derivation_path.rs:58-68 `Display` -/
def display (p : DerivationPath) : Str :=
  p.path.foldl (fun out c => out ++ ('/' :: c.display)) ['m']

/-- `path.map(str::parse).collect::<Result<_>>()`: the first error wins.  Used in src/bip32/derivation_path.rs:91. -/
def parseAll : List Str → Res Error (List ChildNumber)
  | [] => .ok []
  | s :: rest => do
    let c ← ChildNumber.fromStr s
    let cs ← parseAll rest
    .ok (c :: cs)

/-- src/bip32/derivation_path.rs:79-94 `from_str` -/
def fromStr (path : Str) : Res Error DerivationPath :=
  match splitChar '/' path with
  | first :: rest =>
    if first ≠ ['m'] then .err .decode
    else do
      let path ← parseAll rest
      .ok ⟨path⟩
  | [] => .err .decode

end DerivationPath
end Kms.Bip32
