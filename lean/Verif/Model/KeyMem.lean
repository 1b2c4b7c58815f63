import Verif.Model.Heap
import Verif.Model.Keys
/-
The byte arrays that the operations on extended private keys declare (local variables and temporaries of type `[u8; N]` in
src/bip32), as they are when their scope ends.  Nothing overwrites an array at the end of its scope but an explicit `zeroize`.
`Heap`, with its list of buffers given back, is used for them.
Not modelled: what a move, the compiler, and the hash functions and libsecp256k1 leave behind; the array of a value that is
moved is counted once, where the value ends.
-/
namespace Kms.Bip32

/-- An array goes out of scope.
The ends of the functions of src/bip32/extended_key/mod.rs:43-105 and src/bip32/extended_key/extended_private_key.rs:153-199. -/
def leave {ε : Type} (cells : Bytes) : Heap ε Unit := ⟨.ok (), [cells]⟩

namespace ExtendedKey

/-- src/bip32/extended_key/mod.rs:43-56 `write_base58`: the array `bytes`. -/
def writeBase58Mem (H : Hashes) (k : ExtendedKey) : Heap Error Str := ⟨(k.writeBase58 H).2, [(k.writeBase58 H).1]⟩

/-- src/bip32/extended_key/mod.rs:59-66 `Display`, called by `to_string()`: the array `buf`, zero at first, into which the text
is written.  (An error of `write_base58` is turned into a panic by `to_string`; `buf` is then left out.) -/
def toStringMem (H : Hashes) (k : ExtendedKey) : Heap Error Str :=
  let r := k.writeBase58Mem H
  match r.out with
  | .ok text => ⟨.ok text, r.freed ++ [utf8 text ++ List.replicate (MAX_BASE58_SIZE - (utf8 text).length) 0]⟩
  | _ => ⟨.panic, r.freed⟩

/-- src/bip32/extended_key/mod.rs:71-104 `from_str`: the array `bytes`. -/
def fromStrMem (H : Hashes) (base58 : Str) : Heap Error ExtendedKey := ⟨(fromStrBuf H base58).2, [(fromStrBuf H base58).1]⟩

/-- src/bip32/extended_key/mod.rs:107-111 `drop`: the key bytes are overwritten, the chain code is not. -/
def dropMem {ε : Type} (k : ExtendedKey) : Heap ε Unit := do
  leave k.drop
  leave k.attrs.chainCode.1

end ExtendedKey

namespace XPrv

/-- src/bip32/extended_key/extended_private_key.rs:158-168 `to_extended_key`: the temporary `self.to_bytes()`; `key_bytes` is
moved. -/
def toExtendedKeyMem (k : XPrv) (pfx : Prefix) : Heap Error ExtendedKey := do
  leave k.toBytes.1
  pure (k.toExtendedKey pfx)

/-- src/bip32/extended_key/extended_private_key.rs:173-175 `to_string`: the extended key is dropped at the end. -/
def toStringMem (H : Hashes) (k : XPrv) (pfx : Prefix) : Heap Error Str := do
  let e ← k.toExtendedKeyMem pfx
  let text ← e.toStringMem H
  e.dropMem
  pure text

/-- src/bip32/extended_key/extended_private_key.rs:245-254 `TryFrom<ExtendedKey>`: the extended key is dropped on every way out;
`from_bytes` is given a reference into it. -/
def tryFromMem (k : ExtendedKey) : Heap Error XPrv := do
  k.dropMem
  Heap.lift (tryFrom k)

/-- src/bip32/extended_key/extended_private_key.rs:234-236 `from_str` -/
def fromStrMem (H : Hashes) (s : Str) : Heap Error XPrv := do
  let k ← ExtendedKey.fromStrMem H s
  tryFromMem k

/-- src/bip32/extended_key/extended_private_key.rs:182-199 `ct_eq`: `key_a` and `key_b`. -/
def eqMem (self other : XPrv) : Heap Error Bool := do
  let keyA := self.toBytes
  let keyB := self.toBytes
  leave (zeroizeArr keyA)
  leave (zeroizeArr keyB)
  pure (self.eq other)

/-- src/bip32/extended_key/extended_private_key.rs:63-85 `new`: the array `result`, on every way out after the HMAC. -/
def newMem (H : Hashes) (seed : Bytes) : Heap Error XPrv :=
  if ![16, 32, 64, 128].contains seed.length then Heap.lift (.err .seedLength)
  else do
    leave (H.hmacSha512 BIP39_DOMAIN_SEPARATOR seed).1
    Heap.lift (new H seed)

/-- src/bip32/extended_key/extended_private_key.rs:97-134 `derive_child`: for a hardened child the temporary
`self.private_key.to_bytes()`; the left half that is handed to the key by value (src/bip32/private_key.rs:46-52 `other`); the
array `result`. -/
def deriveChildMem (H : Hashes) (k : XPrv) (childNumber : ChildNumber) : Heap Error XPrv :=
  match checkedSucc k.attrs.depth with
  | none => Heap.lift (.err .depth)
  | some _ => do
    if childNumber.isHardened then leave (PrivateKey.toBytes k.privateKey).1 else pure ()
    leave ((H.hmacSha512 k.attrs.chainCode.1 (k.hmacInput childNumber)).1.take KEY_SIZE)
    leave (H.hmacSha512 k.attrs.chainCode.1 (k.hmacInput childNumber)).1
    Heap.lift (k.deriveChild H childNumber)

end XPrv
end Kms.Bip32
