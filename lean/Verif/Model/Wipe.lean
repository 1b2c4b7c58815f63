import Verif.Model.Prelude
/-
Wiping of memory.  The crate calls `zeroize` of the dependency zeroize 1.5; its loops are modelled here from its
documented behaviour, because its source is not in /repo.  Copies that the compiler or a move leaves behind are not
modelled.
-/
namespace Kms

/-- `IterMut::zeroize` over a slice of bytes (also `[u8; N]`): write 0 to the cells from `i` on, one after the other, `fuel`
times.  Used in src/bip32/extended_key/mod.rs:53, 90, 109 and src/bip32/extended_key/extended_private_key.rs:195-196. -/
def wipeFrom (i : Nat) : (fuel : Nat) → Bytes → Bytes
  | 0, mem => mem
  | fuel + 1, mem => wipeFrom (i + 1) fuel (mem.set i 0)

/-- `<[u8; N] as Zeroize>::zeroize`.
Used in src/bip32/extended_key/mod.rs:53, 90, 109 and src/bip32/extended_key/extended_private_key.rs:195-196. -/
def zeroizeArr {n : Nat} (a : ByteArr n) : Bytes := wipeFrom 0 n a.1

/-- The memory of a `Vec<u8>` or `String`: all cells of its buffer (as many as its capacity), of which the first `len` are
in use.  Used in src/bip39/seed.rs:88 and src/bip39/mnemonic.rs:41-43, 98, 112, 144, 152. -/
structure VecMem where
  cells : Bytes
  len : Nat
  len_le : len ≤ cells.length

namespace VecMem

/-- What the vector holds.  Used in src/bip39/seed.rs:88 and src/bip39/mnemonic.rs:41-43, 98, 112, 144, 152. -/
def bytes (v : VecMem) : Bytes := v.cells.take v.len

/-- `Vec::new()`, `String::new()`: no buffer.
Used in src/bip39/seed.rs:88 and src/bip39/mnemonic.rs:41-43, 98, 112, 144, 152. -/
def empty : VecMem := ⟨[], 0, Nat.le_refl _⟩

/-- `<Vec<u8> as Zeroize>::zeroize` (`String` uses it too): zero the elements, `clear`, zero the spare capacity. The result
is the buffer afterwards.  Used in src/bip39/seed.rs:88 and src/bip39/mnemonic.rs:41-43, 98, 112, 144, 152. -/
def zeroize (v : VecMem) : Bytes :=
  let cells := wipeFrom 0 v.len v.cells
  let len := 0
  wipeFrom len (cells.length - len) cells

end VecMem
end Kms
