import Verif.Model.GenericKeys
import Verif.Model.Equality
/-
What someone who sees timing and memory accesses, but not contents, sees of the operations on extended private keys: which
way every branch goes, which element of which array is read or written, and how many bytes are hashed.  The values are those of
`Verif.Model.GenericKeys`.
Taken from crate subtle 2.4.1: `ct_eq` of integers is computed with `^`, `|`, `wrapping_neg` and `>>`; `ct_eq` of slices looks
at every element; `Choice` holds 0 or 1, which is asserted in debug builds.
Simplifications: arithmetic on machine integers and copies of arrays take the same time whatever the values, HMAC shows the
lengths of its inputs only; what the methods of the key show is a parameter (`KeyView`).
-/
namespace Kms

/-- One thing seen.
Bookkeeping for what is seen of src/bip32/extended_key/extended_private_key.rs:97-134, 182-199 and
src/bip32/private_key.rs:35-56. -/
inductive Ev where
  /-- a conditional jump, taken or not -/
  | branch (taken : Bool)
  /-- element `i` of an array is read -/
  | load (array : String) (i : Nat)
  /-- element `i` of an array is written -/
  | store (array : String) (i : Nat)
  /-- so many bytes go into a hash function -/
  | hash (len : Nat)
  /-- something inside a method of the key -/
  | inside (n : Nat)
  deriving DecidableEq, Repr

/-- A call: its outcome and what is seen of it, in order.
Bookkeeping for what is seen of src/bip32/extended_key/extended_private_key.rs:97-134, 182-199 and
src/bip32/private_key.rs:35-56. -/
structure Seen (ε α : Type) where
  out : Res ε α
  view : List Ev

namespace Seen

/-- `?`-style sequencing.  The branch that `?` makes is written out where it happens.
Bookkeeping for what is seen of src/bip32/extended_key/extended_private_key.rs:97-134, 182-199 and
src/bip32/private_key.rs:35-56. -/
def bind {ε α β : Type} (x : Seen ε α) (f : α → Seen ε β) : Seen ε β :=
  match x.out with
  | .ok a => ⟨(f a).out, x.view ++ (f a).view⟩
  | .err e => ⟨.err e, x.view⟩
  | .panic => ⟨.panic, x.view⟩

/-- Bookkeeping for what is seen of src/bip32/extended_key/extended_private_key.rs:97-134, 182-199 and
src/bip32/private_key.rs:35-56. -/
instance {ε : Type} : Monad (Seen ε) where
  pure a := ⟨.ok a, []⟩
  bind := bind

/-- Something is seen.
Bookkeeping for what is seen of src/bip32/extended_key/extended_private_key.rs:97-134, 182-199 and
src/bip32/private_key.rs:35-56. -/
def emit {ε : Type} (v : List Ev) : Seen ε Unit := ⟨.ok (), v⟩

/-- `?` on an outcome: the branch on `Ok` or `Err`; a panic has none.
Used in src/bip32/extended_key/extended_private_key.rs:98-129. -/
def tryOp {ε α : Type} (r : Res ε α) : Seen ε α :=
  ⟨r, match r with
    | .ok _ => [.branch true]
    | .err _ => [.branch false]
    | .panic => []⟩

end Seen

namespace Subtle

/-- subtle: `From<u8> for Choice`; `debug_assert!((input == 0) | (input == 1))`.
Used in src/bip32/extended_key/extended_private_key.rs:186-193. -/
def choiceFrom {ε : Type} (debug : Bool) (x : BitVec 8) : Seen ε (BitVec 8) :=
  if debug then
    if (x == 0) || (x == 1) then ⟨.ok x, [.branch true]⟩ else ⟨.panic, [.branch false]⟩
  else ⟨.ok x, []⟩

/-- subtle: `ct_eq` of `u8` and `u32`: the top bit of `x | -x` is 0 exactly if `x = self ^ other` is 0.
Used in src/bip32/extended_key/extended_private_key.rs:186-193. -/
def intCtEq {ε : Type} (debug : Bool) {w : Nat} (a b : BitVec w) : Seen ε (BitVec 8) :=
  let x := a ^^^ b
  let y := (x ||| -x) >>> (w - 1)
  choiceFrom debug ((y ^^^ 1#w).setWidth 8)

/-- subtle: the loop of `ct_eq` of slices, from element `i` on.
Used in src/bip32/extended_key/extended_private_key.rs:186-193. -/
def sliceLoop {ε : Type} (debug : Bool) (na nb : String) : Nat → List (UInt8 × UInt8) → BitVec 8 → Seen ε (BitVec 8)
  | _, [], x => do
    Seen.emit [.branch false]
    pure x
  | i, (p, q) :: r, x => do
    Seen.emit [.branch true, .load na i, .load nb i]
    let c ← intCtEq debug p.toBitVec q.toBitVec
    sliceLoop debug na nb (i + 1) r (x &&& c)

/-- subtle: `ct_eq` of slices.  It returns early on different lengths.
Used in src/bip32/extended_key/extended_private_key.rs:186-193. -/
def sliceCtEq {ε : Type} (debug : Bool) (na nb : String) (a b : Bytes) : Seen ε (BitVec 8) := do
  Seen.emit [.branch (a.length != b.length)]
  if a.length != b.length then choiceFrom debug 0
  else
    let x ← sliceLoop debug na nb 0 (a.zip b) 1
    choiceFrom debug x

/-- subtle: `BitAnd for Choice`.  Used in src/bip32/extended_key/extended_private_key.rs:186-193. -/
def bitAnd {ε : Type} (debug : Bool) (a b : BitVec 8) : Seen ε (BitVec 8) := choiceFrom debug (a &&& b)

/-- subtle: `From<Choice> for bool`, with the same assertion.  Used in src/bip32/extended_key/extended_private_key.rs:224. -/
def toBool {ε : Type} (debug : Bool) (x : BitVec 8) : Seen ε Bool := do
  let x ← choiceFrom debug x
  pure (x != 0)

/-- zeroize: every element of the array is written.  Used in src/bip32/extended_key/extended_private_key.rs:195-196. -/
def zeroizeSeen {ε : Type} (name : String) (len : Nat) : Seen ε Unit :=
  Seen.emit ((List.range len).map (Ev.store name))

end Subtle

namespace Bip32
open Subtle

/-- What the methods of a key type show when they are called, src/bip32/private_key.rs:11-29, src/bip32/public_key.rs:17-35. -/
structure KeyView (K : KeyImpl) where
  toBytes : K.SK → List Ev
  publicKey : K.SK → List Ev
  deriveChild : K.SK → ByteArr 32 → List Ev
  pubToBytes : K.PK → List Ev
  fingerprint : K.PK → List Ev

namespace GPrv
variable {K : KeyImpl}

/-- src/bip32/extended_key/extended_private_key.rs:182-199 `ct_eq` (`key_b` is `self.to_bytes()`). -/
def ctEqSeen (debug : Bool) (V : KeyView K) (self other : GPrv K) : Seen Error (BitVec 8) := do
  Seen.emit (V.toBytes self.privateKey)
  let keyA := self.toBytes
  Seen.emit (V.toBytes self.privateKey)
  let keyB := self.toBytes
  let r ← sliceCtEq debug "key_a" "key_b" keyA.1 keyB.1
  let c ← intCtEq debug self.attrs.depth.toBitVec other.attrs.depth.toBitVec
  let r ← bitAnd debug r c
  let c ← sliceCtEq debug "self.parent_fingerprint" "other.parent_fingerprint" self.attrs.parentFingerprint.1
    other.attrs.parentFingerprint.1
  let r ← bitAnd debug r c
  let c ← intCtEq debug self.attrs.childNumber.n other.attrs.childNumber.n
  let r ← bitAnd debug r c
  let c ← sliceCtEq debug "self.chain_code" "other.chain_code" self.attrs.chainCode.1 other.attrs.chainCode.1
  let r ← bitAnd debug r c
  zeroizeSeen "key_a" 32
  zeroizeSeen "key_b" 32
  pure r

/-- src/bip32/extended_key/extended_private_key.rs:223-225 `eq` -/
def eqSeen (debug : Bool) (V : KeyView K) (self other : GPrv K) : Seen Error Bool := do
  let r ← self.ctEqSeen debug V other
  toBool debug r

/-- src/bip32/extended_key/extended_private_key.rs:97-134 `derive_child` -/
def deriveChildSeen (H : Hashes) (V : KeyView K) (k : GPrv K) (childNumber : ChildNumber) : Seen Error (GPrv K) := do
  let depth ← Seen.tryOp (Res.ofOption Error.depth (checkedSucc k.attrs.depth))
  Seen.emit [.hash k.attrs.chainCode.1.length, .branch childNumber.isHardened]
  if childNumber.isHardened then
    Seen.emit ([.hash 1] ++ V.toBytes k.privateKey ++ [.hash (K.toBytes k.privateKey).1.length])
  else
    Seen.emit (V.publicKey k.privateKey ++ V.pubToBytes (K.publicKey k.privateKey) ++
      [.hash (K.pubToBytes (K.publicKey k.privateKey)).1.length])
  Seen.emit [.hash childNumber.toBytes.1.length]
  let result := (H.hmacSha512 k.attrs.chainCode.1 (k.hmacInput childNumber)).1
  let childKey ← Seen.tryOp (tryIntoArr 32 Error.decode (result.take KEY_SIZE))
  Seen.emit (V.deriveChild k.privateKey childKey)
  let privateKey ← Seen.tryOp (K.deriveChild k.privateKey childKey)
  Seen.emit (V.publicKey k.privateKey ++ V.fingerprint (K.publicKey k.privateKey))
  let chainCode ← Seen.tryOp (tryIntoArr 32 Error.decode (result.drop KEY_SIZE))
  pure ⟨privateKey, ⟨depth, K.fingerprint (K.publicKey k.privateKey), childNumber, chainCode⟩⟩

/-- src/bip32/extended_key/extended_private_key.rs:87-94 `derive_from_path`: `fold` goes on after a failure, `and_then` then
does nothing but its branch. -/
def deriveFromPathSeen (H : Hashes) (V : KeyView K) (k : GPrv K) : List ChildNumber → Seen Error (GPrv K)
  | [] => ⟨.ok k, [.branch false]⟩
  | i :: rest =>
    let r := k.deriveChildSeen H V i
    match r.out with
    | .ok c => ⟨(c.deriveFromPathSeen H V rest).out, [.branch true, .branch true] ++ r.view ++ (c.deriveFromPathSeen H V rest).view⟩
    | .err e => ⟨.err e, [.branch true, .branch true] ++ r.view ++ rest.flatMap (fun _ => [.branch true, .branch false]) ++ [.branch false]⟩
    | .panic => ⟨.panic, [.branch true, .branch true] ++ r.view⟩

end GPrv

/-- src/bip32/extended_key/attrs.rs:7-20, `derive(PartialEq)`: the fields in turn, up to the first that differs.  (How the arrays
are compared is left to the compiler; a difference in them is one branch here.) -/
def ExtendedKeyAttrs.eqSeen (a b : ExtendedKeyAttrs) : Seen Error Bool := do
  Seen.emit [.branch (a.depth == b.depth)]
  if a.depth == b.depth then
    Seen.emit [.branch (a.parentFingerprint.1 == b.parentFingerprint.1)]
    if a.parentFingerprint.1 == b.parentFingerprint.1 then
      Seen.emit [.branch (a.childNumber.eq b.childNumber)]
      if a.childNumber.eq b.childNumber then
        Seen.emit [.branch (a.chainCode.1 == b.chainCode.1)]
        pure (a.chainCode.1 == b.chainCode.1)
      else pure false
    else pure false
  else pure false

end Bip32
end Kms
