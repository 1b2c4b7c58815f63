import Verif.Model.GenericKeys
/-
src/bip32/extended_key/extended_private_key.rs and src/bip32/extended_key/extended_public_key.rs once more, over
implementations of the traits `PrivateKey` and `PublicKey` with state of their own (a hardware module, a counter, a cache, a
random number generator), any method of which may panic.  The calls made to the implementation are recorded.
Simplification: dropping a key is not recorded (an implementation may have a `Drop` of its own).
-/
namespace Kms.Bip32

/-- src/bip32/private_key.rs:11-29, src/bip32/public_key.rs:17-35: implementations of the two traits, over a state `σ`.
A method that returns no `Result` returns or panics. -/
structure StatefulKeys (σ : Type) where
  SK : Type
  PK : Type
  fromBytes : ByteArr 32 → σ → Res Error SK × σ
  toBytes : SK → σ → Res Empty (ByteArr 32) × σ
  deriveChild : SK → ByteArr 32 → σ → Res Error SK × σ
  publicKey : SK → σ → Res Empty PK × σ
  pubFromBytes : ByteArr 33 → σ → Res Error PK × σ
  pubToBytes : PK → σ → Res Empty (ByteArr 33) × σ
  pubDeriveChild : PK → ByteArr 32 → σ → Res Error PK × σ
  fingerprint : PK → σ → Res Empty (ByteArr 4) × σ

/-- One call of a method: the arguments and what came back.
A method of src/bip32/private_key.rs:12-29 or src/bip32/public_key.rs:18-35. -/
inductive KeyEvent (SK PK : Type) where
  | fromBytes (b : ByteArr 32) (out : Res Error SK)
  | toBytes (k : SK) (out : Res Empty (ByteArr 32))
  | deriveChild (k : SK) (tweak : ByteArr 32) (out : Res Error SK)
  | publicKey (k : SK) (out : Res Empty PK)
  | pubFromBytes (b : ByteArr 33) (out : Res Error PK)
  | pubToBytes (p : PK) (out : Res Empty (ByteArr 33))
  | pubDeriveChild (p : PK) (tweak : ByteArr 32) (out : Res Error PK)
  | fingerprint (p : PK) (out : Res Empty (ByteArr 4))

/-- A piece of code that calls methods: from a state of the implementation to an outcome, a new state and the calls made.
Bookkeeping for calls of the methods of src/bip32/private_key.rs:12-29 or src/bip32/public_key.rs:18-35. -/
def KeyM {σ : Type} (K : StatefulKeys σ) (α : Type) := σ → Res Error α × σ × List (KeyEvent K.SK K.PK)

namespace KeyM
variable {σ : Type} {K : StatefulKeys σ}

/-- `?` and the end of statements: an error or a panic ends the code.
Bookkeeping for calls of the methods of src/bip32/private_key.rs:12-29 or src/bip32/public_key.rs:18-35. -/
def bind {α β : Type} (x : KeyM K α) (f : α → KeyM K β) : KeyM K β := fun s =>
  match x s with
  | (.ok a, s', log) => ((f a s').1, (f a s').2.1, log ++ (f a s').2.2)
  | (.err e, s', log) => (.err e, s', log)
  | (.panic, s', log) => (.panic, s', log)

/-- Bookkeeping for calls of the methods of src/bip32/private_key.rs:12-29 or src/bip32/public_key.rs:18-35. -/
instance : Monad (KeyM K) where
  pure a := fun s => (.ok a, s, [])
  bind := bind

/-- Code that calls no method.
Bookkeeping for calls of the methods of src/bip32/private_key.rs:12-29 or src/bip32/public_key.rs:18-35. -/
def lift {α : Type} (r : Res Error α) : KeyM K α := fun s => (r, s, [])

/-- A call of a method that returns a `Result`.  A method of src/bip32/private_key.rs:12-29 or src/bip32/public_key.rs:18-35. -/
def call {α : Type} (event : Res Error α → KeyEvent K.SK K.PK) (m : σ → Res Error α × σ) : KeyM K α := fun s =>
  ((m s).1, (m s).2, [event (m s).1])

/-- A call of a method that returns a plain value.
A method of src/bip32/private_key.rs:12-29 or src/bip32/public_key.rs:18-35. -/
def call' {α : Type} (event : Res Empty α → KeyEvent K.SK K.PK) (m : σ → Res Empty α × σ) : KeyM K α := fun s =>
  ((m s).1.mapErr Empty.elim, (m s).2, [event (m s).1])

/-- A call of `PrivateKey::from_bytes`, src/bip32/private_key.rs:17. -/
def fromBytes (b : ByteArr 32) : KeyM K K.SK := call (.fromBytes b) (K.fromBytes b)
/-- A call of `PrivateKey::to_bytes`, src/bip32/private_key.rs:20. -/
def toBytes (k : K.SK) : KeyM K (ByteArr 32) := call' (.toBytes k) (K.toBytes k)
/-- A call of `PrivateKey::derive_child`, src/bip32/private_key.rs:25. -/
def deriveChild (k : K.SK) (t : ByteArr 32) : KeyM K K.SK := call (.deriveChild k t) (K.deriveChild k t)
/-- A call of `PrivateKey::public_key`, src/bip32/private_key.rs:28. -/
def publicKey (k : K.SK) : KeyM K K.PK := call' (.publicKey k) (K.publicKey k)
/-- A call of `PublicKey::from_bytes`, src/bip32/public_key.rs:20. -/
def pubFromBytes (b : ByteArr 33) : KeyM K K.PK := call (.pubFromBytes b) (K.pubFromBytes b)
/-- A call of `PublicKey::to_bytes`, src/bip32/public_key.rs:23. -/
def pubToBytes (p : K.PK) : KeyM K (ByteArr 33) := call' (.pubToBytes p) (K.pubToBytes p)
/-- A call of `PublicKey::derive_child`, src/bip32/public_key.rs:26. -/
def pubDeriveChild (p : K.PK) (t : ByteArr 32) : KeyM K K.PK := call (.pubDeriveChild p t) (K.pubDeriveChild p t)
/-- A call of `PublicKey::fingerprint`, src/bip32/public_key.rs:31. -/
def fingerprint (p : K.PK) : KeyM K (ByteArr 4) := call' (.fingerprint p) (K.fingerprint p)

end KeyM

/-- src/bip32/extended_key/extended_private_key.rs:35-42 `ExtendedPrivateKey<K>` -/
structure SPrv {σ : Type} (K : StatefulKeys σ) where
  privateKey : K.SK
  attrs : ExtendedKeyAttrs

/-- src/bip32/extended_key/extended_public_key.rs:23-30 `ExtendedPublicKey<K>` -/
structure SPub {σ : Type} (K : StatefulKeys σ) where
  publicKey : K.PK
  attrs : ExtendedKeyAttrs

namespace SPub
variable {σ : Type} {K : StatefulKeys σ}
open KeyM

/-- src/bip32/extended_key/extended_public_key.rs:48-50 `fingerprint` -/
def fingerprint (k : SPub K) : KeyM K (ByteArr 4) := KeyM.fingerprint k.publicKey

/-- src/bip32/extended_key/extended_public_key.rs:62-88 `derive_child` -/
def deriveChild (H : Hashes) (k : SPub K) (childNumber : ChildNumber) : KeyM K (SPub K) := do
  if childNumber.isHardened then lift (.err .childNumber)
  else
    let depth ← lift (Res.ofOption Error.depth (checkedSucc k.attrs.depth))
    let bytes ← pubToBytes k.publicKey
    let result := (H.hmacSha512 k.attrs.chainCode.1 (bytes.1 ++ childNumber.toBytes.1)).1
    let childKey ← lift (tryIntoArr 32 Error.decode (result.take KEY_SIZE))
    let publicKey ← pubDeriveChild k.publicKey childKey
    let parentFingerprint ← KeyM.fingerprint k.publicKey
    let chainCode ← lift (tryIntoArr 32 Error.decode (result.drop KEY_SIZE))
    pure ⟨publicKey, ⟨depth, parentFingerprint, childNumber, chainCode⟩⟩

/-- src/bip32/extended_key/extended_public_key.rs:52-59 `derive_from_path` -/
def deriveFromPath (H : Hashes) (k : SPub K) (path : DerivationPath) : KeyM K (SPub K) :=
  path.iter.foldl (fun maybeKey childNum => maybeKey >>= fun key => key.deriveChild H childNum) (pure k)

/-- src/bip32/extended_key/extended_public_key.rs:91-93 `to_bytes` -/
def toBytes (k : SPub K) : KeyM K (ByteArr 33) := pubToBytes k.publicKey

/-- src/bip32/extended_key/extended_public_key.rs:96-102 `to_extended_key` -/
def toExtendedKey (k : SPub K) (pfx : Prefix) : KeyM K ExtendedKey := do
  let keyBytes ← k.toBytes
  pure ⟨pfx, k.attrs, keyBytes⟩

/-- src/bip32/extended_key/extended_public_key.rs:107-109 `to_string` -/
def toString (H : Hashes) (k : SPub K) (pfx : Prefix) : KeyM K Str := do
  let e ← k.toExtendedKey pfx
  lift (e.toString H)

/-- src/bip32/extended_key/extended_public_key.rs:141-150 `TryFrom<ExtendedKey>` -/
def tryFrom (K : StatefulKeys σ) (k : ExtendedKey) : KeyM K (SPub K) := do
  if k.pfx.isPublic then
    let publicKey ← pubFromBytes k.keyBytes
    pure ⟨publicKey, k.attrs⟩
  else lift (.err .crypto)

/-- src/bip32/extended_key/extended_public_key.rs:130-132 `from_str` -/
def fromStr (K : StatefulKeys σ) (H : Hashes) (s : Str) : KeyM K (SPub K) := do
  let k ← lift (ExtendedKey.fromStr H s)
  tryFrom K k

end SPub

namespace SPrv
variable {σ : Type} {K : StatefulKeys σ}
open KeyM

/-- src/bip32/extended_key/extended_private_key.rs:63-85 `new` -/
def new (K : StatefulKeys σ) (H : Hashes) (seed : Bytes) : KeyM K (SPrv K) := do
  if ![16, 32, 64, 128].contains seed.length then lift (.err .seedLength)
  else
    let result := (H.hmacSha512 BIP39_DOMAIN_SEPARATOR seed).1
    let secretKey ← lift (tryIntoArr 32 Error.decode (result.take KEY_SIZE))
    let privateKey ← fromBytes secretKey
    let chainCode ← lift (tryIntoArr 32 Error.decode (result.drop KEY_SIZE))
    pure ⟨privateKey, ⟨0, zeroArr 4, ChildNumber.default, chainCode⟩⟩

/-- src/bip32/extended_key/extended_private_key.rs:103-110 -/
def hmacInput (k : SPrv K) (childNumber : ChildNumber) : KeyM K Bytes := do
  if childNumber.isHardened then
    let bytes ← KeyM.toBytes k.privateKey
    pure ([0] ++ bytes.1 ++ childNumber.toBytes.1)
  else
    let publicKey ← KeyM.publicKey k.privateKey
    let bytes ← pubToBytes publicKey
    pure (bytes.1 ++ childNumber.toBytes.1)

/-- src/bip32/extended_key/extended_private_key.rs:97-134 `derive_child` -/
def deriveChild (H : Hashes) (k : SPrv K) (childNumber : ChildNumber) : KeyM K (SPrv K) := do
  let depth ← lift (Res.ofOption Error.depth (checkedSucc k.attrs.depth))
  let input ← k.hmacInput childNumber
  let result := (H.hmacSha512 k.attrs.chainCode.1 input).1
  let childKey ← lift (tryIntoArr 32 Error.decode (result.take KEY_SIZE))
  let privateKey ← KeyM.deriveChild k.privateKey childKey
  let publicKey ← KeyM.publicKey k.privateKey
  let parentFingerprint ← KeyM.fingerprint publicKey
  let chainCode ← lift (tryIntoArr 32 Error.decode (result.drop KEY_SIZE))
  pure ⟨privateKey, ⟨depth, parentFingerprint, childNumber, chainCode⟩⟩

/-- src/bip32/extended_key/extended_private_key.rs:53-60 `new_from_path` -/
def newFromPath (K : StatefulKeys σ) (H : Hashes) (seed : Bytes) (path : DerivationPath) : KeyM K (SPrv K) :=
  path.iter.foldl (fun maybeKey childNum => maybeKey >>= fun key => key.deriveChild H childNum) (new K H seed)

/-- src/bip32/extended_key/extended_private_key.rs:87-94 `derive_from_path` -/
def deriveFromPath (H : Hashes) (k : SPrv K) (path : DerivationPath) : KeyM K (SPrv K) :=
  path.iter.foldl (fun maybeKey childNum => maybeKey >>= fun key => key.deriveChild H childNum) (pure k)

/-- src/bip32/extended_key/extended_private_key.rs:142-144 `public_key`,
src/bip32/extended_key/extended_public_key.rs:112-122 `From<&ExtendedPrivateKey>` -/
def publicKey (k : SPrv K) : KeyM K (SPub K) := do
  let publicKey ← KeyM.publicKey k.privateKey
  pure ⟨publicKey, k.attrs⟩

/-- src/bip32/extended_key/extended_private_key.rs:153-155 `to_bytes` -/
def toBytes (k : SPrv K) : KeyM K (ByteArr 32) := KeyM.toBytes k.privateKey

/-- src/bip32/extended_key/extended_private_key.rs:158-168 `to_extended_key` -/
def toExtendedKey (k : SPrv K) (pfx : Prefix) : KeyM K ExtendedKey := do
  let bytes ← k.toBytes
  pure ⟨pfx, k.attrs, ⟨0 :: bytes.1, by simp [bytes.2]⟩⟩

/-- src/bip32/extended_key/extended_private_key.rs:173-175 `to_string` -/
def toString (H : Hashes) (k : SPrv K) (pfx : Prefix) : KeyM K Str := do
  let e ← k.toExtendedKey pfx
  lift (e.toString H)

/-- src/bip32/extended_key/extended_private_key.rs:182-199 `ct_eq` (`key_b` is `self.to_bytes()`), :223-225 `eq`. -/
def eq (self other : SPrv K) : KeyM K Bool := do
  let keyA ← self.toBytes
  let keyB ← self.toBytes
  pure ((keyA == keyB) && (self.attrs.depth == other.attrs.depth)
    && (self.attrs.parentFingerprint == other.attrs.parentFingerprint)
    && (self.attrs.childNumber.n == other.attrs.childNumber.n)
    && (self.attrs.chainCode == other.attrs.chainCode))

/-- src/bip32/extended_key/extended_private_key.rs:245-254 `TryFrom<ExtendedKey>` -/
def tryFrom (K : StatefulKeys σ) (k : ExtendedKey) : KeyM K (SPrv K) := do
  if k.pfx.isPrivate && k.keyBytes.1.headD 0 == 0 then
    let bytes ← lift (tryIntoArr 32 Error.decode (k.keyBytes.1.drop 1))
    let privateKey ← fromBytes bytes
    pure ⟨privateKey, k.attrs⟩
  else lift (.err .crypto)

/-- src/bip32/extended_key/extended_private_key.rs:234-236 `from_str` -/
def fromStr (K : StatefulKeys σ) (H : Hashes) (s : Str) : KeyM K (SPrv K) := do
  let k ← lift (ExtendedKey.fromStr H s)
  tryFrom K k

/-- src/bip32/extended_key/extended_private_key.rs:202-213 `Debug`: no method of the key is called. -/
def debug (pretty : Bool) (k : SPrv K) : KeyM K Str := lift (.ok
  (debugStruct pretty "ExtendedPrivateKey".toList
    [("private_key".toList, debugStr "...".toList), ("attrs".toList, k.attrs.debug pretty)]))

end SPrv

/-- An implementation without state as one with state.
Bookkeeping for calls of the methods of src/bip32/private_key.rs:12-29 or src/bip32/public_key.rs:18-35. -/
def KeyImpl.stateful (K : KeyImpl) : StatefulKeys Unit where
  SK := K.SK
  PK := K.PK
  fromBytes b _ := (K.fromBytes b, ())
  toBytes k _ := (.ok (K.toBytes k), ())
  deriveChild k t _ := (K.deriveChild k t, ())
  publicKey k _ := (.ok (K.publicKey k), ())
  pubFromBytes b _ := (K.pubFromBytes b, ())
  pubToBytes p _ := (.ok (K.pubToBytes p), ())
  pubDeriveChild p t _ := (K.pubDeriveChild p t, ())
  fingerprint p _ := (.ok (K.fingerprint p), ())

end Kms.Bip32
