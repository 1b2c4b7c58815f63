import Verif.Model.Keys
import Verif.Model.Debug
/-
src/bip32/private_key.rs, src/bip32/public_key.rs, src/bip32/extended_key/extended_private_key.rs,
src/bip32/extended_key/extended_public_key.rs, without the simplification of `Verif.Model.Keys`: the public traits
`PrivateKey` and `PublicKey` may be implemented by users, and `ExtendedPrivateKey<K>`, `ExtendedPublicKey<K>` are
generic in `K`.
-/
namespace Kms.Bip32

/-- src/bip32/private_key.rs:11-29, src/bip32/public_key.rs:17-35: an implementation of the trait `PrivateKey`
together with the implementation of `PublicKey` that its associated type names.  `fingerprint` has a default body
(`KeyImpl.defaultFingerprint`), which an implementation may replace.  Simplification: the methods are functions of their
arguments (no hidden state), and only those that return a `Result` may panic. -/
structure KeyImpl where
  SK : Type
  PK : Type
  fromBytes : ByteArr 32 → Res Error SK
  toBytes : SK → ByteArr 32
  deriveChild : SK → ByteArr 32 → Res Error SK
  publicKey : SK → PK
  pubFromBytes : ByteArr 33 → Res Error PK
  pubToBytes : PK → ByteArr 33
  pubDeriveChild : PK → ByteArr 32 → Res Error PK
  fingerprint : PK → ByteArr 4

/-- src/bip32/public_key.rs:31-34: the default body of `fingerprint`. -/
def defaultFingerprint (H : Hashes) (bytes : ByteArr 33) : ByteArr 4 :=
  let digest := H.ripemd160 (H.sha256 bytes.1).1
  ⟨digest.1.take 4, by simp [digest.2]⟩

/-- src/bip32/private_key.rs:32-58, src/bip32/public_key.rs:37-56: the implementation for the keys of libsecp256k1. -/
def secpImpl (H : Hashes) : KeyImpl where
  SK := Secp.SecretKey
  PK := Secp.PublicKey
  fromBytes := PrivateKey.fromBytes
  toBytes := PrivateKey.toBytes
  deriveChild := PrivateKey.deriveChild
  publicKey := PrivateKey.publicKey
  pubFromBytes := PublicKey.fromBytes
  pubToBytes := PublicKey.toBytes
  pubDeriveChild := PublicKey.deriveChild
  fingerprint := fun k => defaultFingerprint H (PublicKey.toBytes k)

/-- src/bip32/extended_key/extended_private_key.rs:35-42 `ExtendedPrivateKey<K>` -/
structure GPrv (K : KeyImpl) where
  privateKey : K.SK
  attrs : ExtendedKeyAttrs

/-- src/bip32/extended_key/extended_public_key.rs:23-30 `ExtendedPublicKey<K>` -/
structure GPub (K : KeyImpl) where
  publicKey : K.PK
  attrs : ExtendedKeyAttrs

namespace GPrv
variable {K : KeyImpl}

/-- src/bip32/extended_key/extended_private_key.rs:63-85 `new` -/
def new (K : KeyImpl) (H : Hashes) (seed : Bytes) : Res Error (GPrv K) := do
  if ![16, 32, 64, 128].contains seed.length then .err .seedLength
  else
    let result := (H.hmacSha512 BIP39_DOMAIN_SEPARATOR seed).1
    let secretKey ← tryIntoArr 32 Error.decode (result.take KEY_SIZE)
    let privateKey ← K.fromBytes secretKey
    let chainCode ← tryIntoArr 32 Error.decode (result.drop KEY_SIZE)
    .ok ⟨privateKey, ⟨0, zeroArr 4, ChildNumber.default, chainCode⟩⟩

/-- src/bip32/extended_key/extended_private_key.rs:103-110 -/
def hmacInput (k : GPrv K) (childNumber : ChildNumber) : Bytes :=
  (if childNumber.isHardened then [0] ++ (K.toBytes k.privateKey).1
   else (K.pubToBytes (K.publicKey k.privateKey)).1) ++ childNumber.toBytes.1

/-- src/bip32/extended_key/extended_private_key.rs:97-134 `derive_child` -/
def deriveChild (H : Hashes) (k : GPrv K) (childNumber : ChildNumber) : Res Error (GPrv K) := do
  let depth ← Res.ofOption Error.depth (checkedSucc k.attrs.depth)
  let result := (H.hmacSha512 k.attrs.chainCode.1 (k.hmacInput childNumber)).1
  let childKey ← tryIntoArr 32 Error.decode (result.take KEY_SIZE)
  let privateKey ← K.deriveChild k.privateKey childKey
  let chainCode ← tryIntoArr 32 Error.decode (result.drop KEY_SIZE)
  .ok ⟨privateKey, ⟨depth, K.fingerprint (K.publicKey k.privateKey), childNumber, chainCode⟩⟩

/-- src/bip32/extended_key/extended_private_key.rs:53-60 `new_from_path` -/
def newFromPath (K : KeyImpl) (H : Hashes) (seed : Bytes) (path : DerivationPath) : Res Error (GPrv K) :=
  path.iter.foldl (fun maybeKey childNum => maybeKey >>= fun key => key.deriveChild H childNum) (new K H seed)

/-- src/bip32/extended_key/extended_private_key.rs:87-94 `derive_from_path` -/
def deriveFromPath (H : Hashes) (k : GPrv K) (path : DerivationPath) : Res Error (GPrv K) :=
  path.iter.foldl (fun maybeKey childNum => maybeKey >>= fun key => key.deriveChild H childNum) (.ok k)

/-- src/bip32/extended_key/extended_private_key.rs:142-144 `public_key`,
src/bip32/extended_key/extended_public_key.rs:112-122 `From<&ExtendedPrivateKey>` -/
def publicKey (k : GPrv K) : GPub K := ⟨K.publicKey k.privateKey, k.attrs⟩

/-- src/bip32/extended_key/extended_private_key.rs:153-155 `to_bytes` -/
def toBytes (k : GPrv K) : ByteArr 32 := K.toBytes k.privateKey

/-- src/bip32/extended_key/extended_private_key.rs:158-168 `to_extended_key` -/
def toExtendedKey (k : GPrv K) (pfx : Prefix) : ExtendedKey :=
  ⟨pfx, k.attrs, ⟨0 :: k.toBytes.1, by simp [k.toBytes.2]⟩⟩

/-- src/bip32/extended_key/extended_private_key.rs:173-175 `to_string` -/
def toString (H : Hashes) (k : GPrv K) (pfx : Prefix) : Res Error Str := (k.toExtendedKey pfx).toString H

/-- src/bip32/extended_key/extended_private_key.rs:182-199 `ct_eq` (`key_b` is `self.to_bytes()`), :223-225 `eq`. -/
def eq (self other : GPrv K) : Bool :=
  let keyA := self.toBytes
  let keyB := self.toBytes
  (keyA == keyB) && (self.attrs.depth == other.attrs.depth)
    && (self.attrs.parentFingerprint == other.attrs.parentFingerprint)
    && (self.attrs.childNumber.n == other.attrs.childNumber.n)
    && (self.attrs.chainCode == other.attrs.chainCode)

/-- src/bip32/extended_key/extended_private_key.rs:245-254 `TryFrom<ExtendedKey>` -/
def tryFrom (K : KeyImpl) (k : ExtendedKey) : Res Error (GPrv K) := do
  if k.pfx.isPrivate && k.keyBytes.1.headD 0 == 0 then
    let bytes ← tryIntoArr 32 Error.decode (k.keyBytes.1.drop 1)
    let privateKey ← K.fromBytes bytes
    .ok ⟨privateKey, k.attrs⟩
  else .err .crypto

/-- src/bip32/extended_key/extended_private_key.rs:234-236 `from_str` -/
def fromStr (K : KeyImpl) (H : Hashes) (s : Str) : Res Error (GPrv K) := do
  let k ← ExtendedKey.fromStr H s
  tryFrom K k

/-- src/bip32/extended_key/extended_private_key.rs:202-213 `Debug` -/
def debug (pretty : Bool) (k : GPrv K) : Str :=
  debugStruct pretty "ExtendedPrivateKey".toList
    [("private_key".toList, debugStr "...".toList), ("attrs".toList, k.attrs.debug pretty)]

end GPrv

namespace GPub
variable {K : KeyImpl}

/-- src/bip32/extended_key/extended_public_key.rs:48-50 `fingerprint` -/
def fingerprint (k : GPub K) : ByteArr 4 := K.fingerprint k.publicKey

/-- src/bip32/extended_key/extended_public_key.rs:62-88 `derive_child` -/
def deriveChild (H : Hashes) (k : GPub K) (childNumber : ChildNumber) : Res Error (GPub K) := do
  if childNumber.isHardened then .err .childNumber
  else
    let depth ← Res.ofOption Error.depth (checkedSucc k.attrs.depth)
    let result := (H.hmacSha512 k.attrs.chainCode.1 ((K.pubToBytes k.publicKey).1 ++ childNumber.toBytes.1)).1
    let childKey ← tryIntoArr 32 Error.decode (result.take KEY_SIZE)
    let publicKey ← K.pubDeriveChild k.publicKey childKey
    let chainCode ← tryIntoArr 32 Error.decode (result.drop KEY_SIZE)
    .ok ⟨publicKey, ⟨depth, K.fingerprint k.publicKey, childNumber, chainCode⟩⟩

/-- src/bip32/extended_key/extended_public_key.rs:52-59 `derive_from_path` -/
def deriveFromPath (H : Hashes) (k : GPub K) (path : DerivationPath) : Res Error (GPub K) :=
  path.iter.foldl (fun maybeKey childNum => maybeKey >>= fun key => key.deriveChild H childNum) (.ok k)

/-- src/bip32/extended_key/extended_public_key.rs:91-93 `to_bytes` -/
def toBytes (k : GPub K) : ByteArr 33 := K.pubToBytes k.publicKey

/-- src/bip32/extended_key/extended_public_key.rs:96-102 `to_extended_key` -/
def toExtendedKey (k : GPub K) (pfx : Prefix) : ExtendedKey := ⟨pfx, k.attrs, k.toBytes⟩

/-- src/bip32/extended_key/extended_public_key.rs:107-109 `to_string` -/
def toString (H : Hashes) (k : GPub K) (pfx : Prefix) : Res Error Str := (k.toExtendedKey pfx).toString H

/-- src/bip32/extended_key/extended_public_key.rs:141-150 `TryFrom<ExtendedKey>` -/
def tryFrom (K : KeyImpl) (k : ExtendedKey) : Res Error (GPub K) := do
  if k.pfx.isPublic then
    let publicKey ← K.pubFromBytes k.keyBytes
    .ok ⟨publicKey, k.attrs⟩
  else .err .crypto

/-- src/bip32/extended_key/extended_public_key.rs:130-132 `from_str` -/
def fromStr (K : KeyImpl) (H : Hashes) (s : Str) : Res Error (GPub K) := do
  let k ← ExtendedKey.fromStr H s
  tryFrom K k

end GPub
end Kms.Bip32
