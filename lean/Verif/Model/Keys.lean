import Verif.Model.Crypto
import Verif.Model.ExtendedKey
import Verif.Model.Secp256k1
/-
src/bip32/private_key.rs, src/bip32/public_key.rs, src/bip32/extended_key/extended_private_key.rs,
src/bip32/extended_key/extended_public_key.rs.
Simplification: the generic parameter `K` is instantiated with its only implementation, the keys of libsecp256k1
(types `XPrv` and `XPub`).  `Verif.Model.GenericKeys` has the generic types.
-/
namespace Kms.Bip32
open Kms.Secp (SecretKey)

/-- `Result::map_err` to `Error::Crypto` for the errors of libsecp256k1.
Used in src/bip32/private_key.rs:36-39, 48-51 and src/bip32/public_key.rs:39-42, 51-54. -/
def cryptoErr {α : Type} (r : Res Secp.Error α) : Res Error α := r.mapErr (fun _ => Error.crypto)

/-- `Result::unwrap`.  Used in src/bip32/private_key.rs:48 and src/bip32/public_key.rs:51. -/
def unwrap {ε ε' α : Type} : Res ε α → Res ε' α
  | .ok a => .ok a
  | _ => .panic

namespace PrivateKey

/-- src/bip32/private_key.rs:35-40 `from_bytes` -/
def fromBytes (bytes : ByteArr 32) : Res Error SecretKey := cryptoErr (SecretKey.parse bytes)

/-- src/bip32/private_key.rs:42-44 `to_bytes` -/
def toBytes (k : SecretKey) : ByteArr 32 := k.serialize

/-- src/bip32/private_key.rs:46-52 `derive_child` -/
def deriveChild (k : SecretKey) (other : ByteArr 32) : Res Error SecretKey := do
  let tweak ← unwrap (SecretKey.parse other)
  cryptoErr (k.tweakAdd tweak)

/-- src/bip32/private_key.rs:54-56 `public_key` -/
def publicKey (k : SecretKey) : Secp.PublicKey := Secp.PublicKey.fromSecretKey k

end PrivateKey

namespace PublicKey

/-- src/bip32/public_key.rs:38-43 `from_bytes` -/
def fromBytes (bytes : ByteArr 33) : Res Error Secp.PublicKey := cryptoErr (Secp.PublicKey.parseCompressed bytes)

/-- src/bip32/public_key.rs:45-47 `to_bytes` -/
def toBytes (k : Secp.PublicKey) : ByteArr 33 := k.serializeCompressed

/-- src/bip32/public_key.rs:49-55 `derive_child` -/
def deriveChild (k : Secp.PublicKey) (other : ByteArr 32) : Res Error Secp.PublicKey := do
  let tweak ← unwrap (SecretKey.parse other)
  cryptoErr (k.tweakAdd tweak)

/-- src/bip32/public_key.rs:31-34 `fingerprint`; the slice of four bytes always converts. -/
def fingerprint (H : Hashes) (k : Secp.PublicKey) : ByteArr 4 :=
  let digest := H.ripemd160 (H.sha256 (toBytes k).1).1
  ⟨digest.1.take 4, by simp [digest.2]⟩

end PublicKey

/-- `u8::checked_add(1)`.
Used in src/bip32/extended_key/extended_private_key.rs:98 and src/bip32/extended_key/extended_public_key.rs:68. -/
def checkedSucc (d : UInt8) : Option UInt8 := if d.toNat + 1 < 256 then some (d + 1) else none

/-- src/bip32/mod.rs:43 -/
def KEY_SIZE : Nat := 32

/-- src/bip32/extended_key/extended_private_key.rs:24-26 -/
def BIP39_DOMAIN_SEPARATOR : Bytes :=
  [0x42, 0x69, 0x74, 0x63, 0x6f, 0x69, 0x6e, 0x20, 0x73, 0x65, 0x65, 0x64]

/-- src/bip32/extended_key/extended_private_key.rs:29,36-42; the fields are private. -/
structure XPrv where
  privateKey : SecretKey
  attrs : ExtendedKeyAttrs
  deriving DecidableEq

/-- src/bip32/extended_key/extended_public_key.rs:18,24-30; the fields are private. -/
structure XPub where
  publicKey : Secp.PublicKey
  attrs : ExtendedKeyAttrs
  deriving DecidableEq

namespace XPrv

/-- src/bip32/extended_key/extended_private_key.rs:63-85 `new`.  `new_from_slice` of HMAC accepts every key length. -/
def new (H : Hashes) (seed : Bytes) : Res Error XPrv := do
  if ![16, 32, 64, 128].contains seed.length then .err .seedLength
  else
    let result := (H.hmacSha512 BIP39_DOMAIN_SEPARATOR seed).1
    let secretKey ← tryIntoArr 32 Error.decode (result.take KEY_SIZE)
    let privateKey ← PrivateKey.fromBytes secretKey
    let chainCode ← tryIntoArr 32 Error.decode (result.drop KEY_SIZE)
    .ok ⟨privateKey, ⟨0, zeroArr 4, ChildNumber.default, chainCode⟩⟩

/-- src/bip32/extended_key/extended_private_key.rs:103-110: the bytes fed to HMAC by `derive_child` -/
def hmacInput (k : XPrv) (childNumber : ChildNumber) : Bytes :=
  (if childNumber.isHardened then [0] ++ (PrivateKey.toBytes k.privateKey).1
   else (PublicKey.toBytes (PrivateKey.publicKey k.privateKey)).1) ++ childNumber.toBytes.1

/-- src/bip32/extended_key/extended_private_key.rs:97-134 `derive_child` -/
def deriveChild (H : Hashes) (k : XPrv) (childNumber : ChildNumber) : Res Error XPrv := do
  let depth ← Res.ofOption Error.depth (checkedSucc k.attrs.depth)
  let result := (H.hmacSha512 k.attrs.chainCode.1 (k.hmacInput childNumber)).1
  let childKey ← tryIntoArr 32 Error.decode (result.take KEY_SIZE)
  let privateKey ← PrivateKey.deriveChild k.privateKey childKey
  let chainCode ← tryIntoArr 32 Error.decode (result.drop KEY_SIZE)
  .ok ⟨privateKey, ⟨depth, PublicKey.fingerprint H (PrivateKey.publicKey k.privateKey), childNumber, chainCode⟩⟩

/-- src/bip32/extended_key/extended_private_key.rs:53-60 `new_from_path` -/
def newFromPath (H : Hashes) (seed : Bytes) (path : DerivationPath) : Res Error XPrv :=
  path.iter.foldl (fun maybeKey childNum => maybeKey >>= fun key => key.deriveChild H childNum) (new H seed)

/-- src/bip32/extended_key/extended_private_key.rs:87-94 `derive_from_path` -/
def deriveFromPath (H : Hashes) (k : XPrv) (path : DerivationPath) : Res Error XPrv :=
  path.iter.foldl (fun maybeKey childNum => maybeKey >>= fun key => key.deriveChild H childNum) (.ok k)

/-- src/bip32/extended_key/extended_private_key.rs:142-144 `public_key`,
src/bip32/extended_key/extended_public_key.rs:112-122 `From<&ExtendedPrivateKey>` -/
def publicKey (k : XPrv) : XPub := ⟨PrivateKey.publicKey k.privateKey, k.attrs⟩

/-- src/bip32/extended_key/extended_private_key.rs:153-155 `to_bytes` -/
def toBytes (k : XPrv) : ByteArr 32 := PrivateKey.toBytes k.privateKey

/-- src/bip32/private_key.rs:61-72 `From<XPrv> for SecretKey` -/
def toSecretKey (k : XPrv) : SecretKey := k.privateKey

/-- src/bip32/extended_key/extended_private_key.rs:158-168 `to_extended_key` -/
def toExtendedKey (k : XPrv) (pfx : Prefix) : ExtendedKey :=
  ⟨pfx, k.attrs, ⟨0 :: k.toBytes.1, by simp [k.toBytes.2]⟩⟩

/-- src/bip32/extended_key/extended_private_key.rs:173-175 `to_string` -/
def toString (H : Hashes) (k : XPrv) (pfx : Prefix) : Res Error Str := (k.toExtendedKey pfx).toString H

/-- src/bip32/extended_key/extended_private_key.rs:182-199 `ct_eq` (`key_b` is `self.to_bytes()`), :223-225 `eq`.
`ct_eq` of crate subtle on byte arrays and integers is equality. -/
def eq (self other : XPrv) : Bool :=
  let keyA := self.toBytes
  let keyB := self.toBytes
  (keyA == keyB) && (self.attrs.depth == other.attrs.depth)
    && (self.attrs.parentFingerprint == other.attrs.parentFingerprint)
    && (self.attrs.childNumber.n == other.attrs.childNumber.n)
    && (self.attrs.chainCode == other.attrs.chainCode)

/-- src/bip32/extended_key/extended_private_key.rs:245-254 `TryFrom<ExtendedKey>` -/
def tryFrom (k : ExtendedKey) : Res Error XPrv := do
  if k.pfx.isPrivate && k.keyBytes.1.headD 0 == 0 then
    let bytes ← tryIntoArr 32 Error.decode (k.keyBytes.1.drop 1)
    let privateKey ← PrivateKey.fromBytes bytes
    .ok ⟨privateKey, k.attrs⟩
  else .err .crypto

/-- src/bip32/extended_key/extended_private_key.rs:234-236 `from_str` -/
def fromStr (H : Hashes) (s : Str) : Res Error XPrv := do
  let k ← ExtendedKey.fromStr H s
  tryFrom k

end XPrv

namespace XPub

/-- src/bip32/extended_key/extended_public_key.rs:48-50 `fingerprint` -/
def fingerprint (H : Hashes) (k : XPub) : ByteArr 4 := PublicKey.fingerprint H k.publicKey

/-- src/bip32/extended_key/extended_public_key.rs:62-88 `derive_child` -/
def deriveChild (H : Hashes) (k : XPub) (childNumber : ChildNumber) : Res Error XPub := do
  if childNumber.isHardened then .err .childNumber
  else
    let depth ← Res.ofOption Error.depth (checkedSucc k.attrs.depth)
    let result := (H.hmacSha512 k.attrs.chainCode.1 ((PublicKey.toBytes k.publicKey).1 ++ childNumber.toBytes.1)).1
    let childKey ← tryIntoArr 32 Error.decode (result.take KEY_SIZE)
    let publicKey ← PublicKey.deriveChild k.publicKey childKey
    let chainCode ← tryIntoArr 32 Error.decode (result.drop KEY_SIZE)
    .ok ⟨publicKey, ⟨depth, PublicKey.fingerprint H k.publicKey, childNumber, chainCode⟩⟩

/-- src/bip32/extended_key/extended_public_key.rs:52-59 `derive_from_path` -/
def deriveFromPath (H : Hashes) (k : XPub) (path : DerivationPath) : Res Error XPub :=
  path.iter.foldl (fun maybeKey childNum => maybeKey >>= fun key => key.deriveChild H childNum) (.ok k)

/-- src/bip32/extended_key/extended_public_key.rs:91-93 `to_bytes` -/
def toBytes (k : XPub) : ByteArr 33 := PublicKey.toBytes k.publicKey

/-- src/bip32/public_key.rs:58-68 `From<XPub> for PublicKey` -/
def toPublicKey (k : XPub) : Secp.PublicKey := k.publicKey

/-- src/bip32/extended_key/extended_public_key.rs:96-102 `to_extended_key` -/
def toExtendedKey (k : XPub) (pfx : Prefix) : ExtendedKey := ⟨pfx, k.attrs, k.toBytes⟩

/-- src/bip32/extended_key/extended_public_key.rs:107-109 `to_string` -/
def toString (H : Hashes) (k : XPub) (pfx : Prefix) : Res Error Str := (k.toExtendedKey pfx).toString H

/-- src/bip32/extended_key/extended_public_key.rs:141-150 `TryFrom<ExtendedKey>` -/
def tryFrom (k : ExtendedKey) : Res Error XPub := do
  if k.pfx.isPublic then
    let publicKey ← PublicKey.fromBytes k.keyBytes
    .ok ⟨publicKey, k.attrs⟩
  else .err .crypto

/-- src/bip32/extended_key/extended_public_key.rs:130-132 `from_str` -/
def fromStr (H : Hashes) (s : Str) : Res Error XPub := do
  let k ← ExtendedKey.fromStr H s
  tryFrom k

end XPub
end Kms.Bip32
