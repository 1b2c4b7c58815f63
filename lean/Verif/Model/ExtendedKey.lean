import Verif.Model.Base58
import Verif.Model.ChildNumber
import Verif.Model.Wipe
/-
src/bip32/prefix.rs, src/bip32/extended_key/attrs.rs, src/bip32/extended_key/mod.rs
-/
namespace Kms.Bip32

/-- src/bip32/prefix.rs:23-31; the fields are private. -/
structure Prefix where
  chars : ByteArr 4
  version : BitVec 32
  deriving DecidableEq

/-- `str::get(..n)` on bytes: the prefix of `n` bytes, if the string is that long and `n` is a character boundary.
Used in src/bip32/extended_key/mod.rs:79. -/
def getBytePrefix : Nat → Str → Option Str
  | 0, _ => some []
  | _ + 1, [] => none
  | n + 1, c :: cs =>
    let w := (String.utf8EncodeChar c).length
    if w ≤ n + 1 then (getBytePrefix (n + 1 - w) cs).map (c :: ·) else none

/-- `str::from_utf8(bytes)` for bytes all below 128 (each a character); `none` otherwise.  Simplification: multi-byte
sequences are not decoded.  The crate calls it on prefix letters and on Base58 text only.
Used in src/bip32/extended_key/mod.rs:55 and src/bip32/prefix.rs:97, 104. -/
def asciiStr (b : Bytes) : Option Str :=
  if b.all (fun x => x.toNat < 128) then some (b.map (fun x => Char.ofNat x.toNat)) else none

namespace Prefix

/-- `matches!(b, b'a'..=b'z' | b'A'..=b'Z')`.  Used in src/bip32/prefix.rs:137. -/
def isLetter (b : UInt8) : Bool := (97 ≤ b.toNat && b.toNat ≤ 122) || (65 ≤ b.toNat && b.toNat ≤ 90)

/-- src/bip32/prefix.rs:129-145 `validate_str` -/
def validateStr (s : Str) : Res Error Str :=
  if (utf8 s).length ≠ 4 then .err .decode
  else if (utf8 s).all isLetter then .ok s
  else .err .decode

/-- src/bip32/prefix.rs:71-77 `from_parts_unchecked`: `const_assert!` indexes out of bounds, that is panics, when the
text is not valid. -/
def fromPartsUnchecked (s : Str) (version : BitVec 32) : Res Error Prefix :=
  match validateStr s with
  | .ok _ => if h : (utf8 s).length = 4 then .ok ⟨⟨utf8 s, h⟩, version⟩ else .panic
  | _ => .panic

/-- src/bip32/prefix.rs:90-100 `from_version`: the text of a key whose other bytes are all zero.  78 is
`ExtendedKey::BYTE_SIZE`, 112 is `ExtendedKey::MAX_BASE58_SIZE`. -/
def fromVersion (H : Hashes) (version : BitVec 32) : Res Error Prefix := do
  let bytes := (u32ToBE version).1 ++ List.replicate 74 0
  let text ← (Base58.encodeCheck H 112 bytes).mapErr (fun _ => Error.base58)
  -- `&buffer[..4]`; the buffer is zero after the text
  let buffer := utf8 text ++ List.replicate (112 - (utf8 text).length) 0
  let s ← Res.ofOption Error.base58 (asciiStr (buffer.take 4))
  let _ ← validateStr s
  fromPartsUnchecked s version

/-- src/bip32/prefix.rs:82-84 `from_bytes` -/
def fromBytes (H : Hashes) (bytes : ByteArr 4) : Res Error Prefix := fromVersion H (u32FromBE bytes)

/-- src/bip32/prefix.rs:181-187 `TryFrom<Version>` -/
def tryFromVersion (H : Hashes) (version : BitVec 32) : Res Error Prefix := fromVersion H version

/-- src/bip32/prefix.rs:189-195 `TryFrom<&[u8]>` -/
def tryFromSlice (H : Hashes) (bytes : Bytes) : Res Error Prefix := do
  let b ← tryIntoArr 4 Error.decode bytes
  fromBytes H b

/-- src/bip32/prefix.rs:103-105 `as_str`: `expect` panics if the bytes are not UTF-8.  Also `AsRef<str>` (:148-152) and
`Display` (:163-167). -/
def asStr (p : Prefix) : Res Error Str :=
  match asciiStr p.chars.1 with
  | some s => .ok s
  | none => .panic

/-- src/bip32/prefix.rs:108-110 `is_public`: `&self.chars[1..] == b"pub"` -/
def isPublic (p : Prefix) : Bool := p.chars.1.drop 1 == [0x70, 0x75, 0x62]

/-- src/bip32/prefix.rs:113-115 `is_private`: `&self.chars[1..] == b"prv"` -/
def isPrivate (p : Prefix) : Bool := p.chars.1.drop 1 == [0x70, 0x72, 0x76]

/-- src/bip32/prefix.rs:123-125 `to_bytes` -/
def toBytes (p : Prefix) : ByteArr 4 := u32ToBE p.version

/-- A constant made by `from_parts_unchecked` from a four-letter text (the checks of the constants are done by the
compiler; theorem `C46` repeats them).  Used in src/bip32/prefix.rs:37-59. -/
def const (a b c d : Char) (version : BitVec 32) : Prefix :=
  ⟨⟨[a, b, c, d].map (fun x => UInt8.ofNat x.toNat), rfl⟩, version⟩

/-- src/bip32/prefix.rs:38 -/
def TPRV : Prefix := const 't' 'p' 'r' 'v' 0x04358394#32
/-- src/bip32/prefix.rs:41 -/
def TPUB : Prefix := const 't' 'p' 'u' 'b' 0x043587cf#32
/-- src/bip32/prefix.rs:44 -/
def XPRV : Prefix := const 'x' 'p' 'r' 'v' 0x0488ade4#32
/-- src/bip32/prefix.rs:47 -/
def XPUB : Prefix := const 'x' 'p' 'u' 'b' 0x0488b21e#32
/-- src/bip32/prefix.rs:50 -/
def YPRV : Prefix := const 'y' 'p' 'r' 'v' 0x049d7878#32
/-- src/bip32/prefix.rs:53 -/
def YPUB : Prefix := const 'y' 'p' 'u' 'b' 0x049d7cb2#32
/-- src/bip32/prefix.rs:56 -/
def ZPRV : Prefix := const 'z' 'p' 'r' 'v' 0x04b2430c#32
/-- src/bip32/prefix.rs:59 -/
def ZPUB : Prefix := const 'z' 'p' 'u' 'b' 0x04b24746#32

end Prefix

/-- src/bip32/extended_key/attrs.rs:8-20 -/
structure ExtendedKeyAttrs where
  depth : UInt8
  parentFingerprint : ByteArr 4
  childNumber : ChildNumber
  chainCode : ByteArr 32
  deriving DecidableEq

/-- src/bip32/extended_key/mod.rs:16-27; the fields are public. -/
structure ExtendedKey where
  pfx : Prefix
  attrs : ExtendedKeyAttrs
  keyBytes : ByteArr 33
  deriving DecidableEq

namespace ExtendedKey

/-- src/bip32/extended_key/mod.rs:31 -/
def BYTE_SIZE : Nat := 78
/-- src/bip32/extended_key/mod.rs:36 -/
def MAX_BASE58_SIZE : Nat := 112

/-- src/bip32/extended_key/mod.rs:44-50: the six `copy_from_slice` fill consecutive ranges of the 78-byte array. -/
def serialize (k : ExtendedKey) : Bytes :=
  k.pfx.toBytes.1 ++ [k.attrs.depth] ++ k.attrs.parentFingerprint.1 ++ k.attrs.childNumber.toBytes.1 ++
    k.attrs.chainCode.1 ++ k.keyBytes.1

/-- src/bip32/extended_key/mod.rs:43-56 `write_base58`: what is left in the local array `bytes`, and the result.
`?` on the encoding error returns before `bytes.zeroize()`. -/
def writeBase58 (H : Hashes) (k : ExtendedKey) : Bytes × Res Error Str :=
  let bytes := k.serialize
  match Base58.encodeCheck H MAX_BASE58_SIZE bytes with
  | .ok text => (wipeFrom 0 bytes.length bytes, .ok text)
  | .err _ => (bytes, .err .base58)
  | .panic => (bytes, .panic)

/-- src/bip32/extended_key/mod.rs:59-66 `Display`; `to_string()` panics when `fmt` returns an error. -/
def toString (H : Hashes) (k : ExtendedKey) : Res Error Str :=
  match (k.writeBase58 H).2 with
  | .ok s => .ok s
  | _ => .panic

/-- src/bip32/extended_key/mod.rs:79-83: the prefix from the first four bytes of the text and the version from the
payload. -/
def parsePrefix (base58 : Str) (bytes : Bytes) : Res Error Prefix := do
  let chars ← Res.ofOption Error.decode (getBytePrefix 4 base58)
  let _ ← Prefix.validateStr chars
  let v ← tryIntoArr 4 Error.decode (bytes.take 4)
  Prefix.fromPartsUnchecked chars (u32FromBE v)

/-- src/bip32/extended_key/mod.rs:71-104 `from_str`: what is left in the local array `bytes`, and the result. -/
def fromStrBuf (H : Hashes) (base58 : Str) : Bytes × Res Error ExtendedKey :=
  match Base58.decodeCheck H (BYTE_SIZE + 4) base58 with
  | (buf, .err _) => (buf, .err .base58)
  | (buf, .panic) => (buf, .panic)
  | (buf, .ok decodedLen) =>
    if decodedLen ≠ BYTE_SIZE then (buf, .err .decode)
    else match parsePrefix base58 buf with
      | .err e => (buf, .err e)
      | .panic => (buf, .panic)
      | .ok pfx =>
        -- `try_into` on ranges of the right length; `bytes[4]`
        match buf[4]?, tryIntoArr 4 Error.decode ((buf.drop 5).take 4), tryIntoArr 4 Error.decode ((buf.drop 9).take 4),
            tryIntoArr 32 Error.decode ((buf.drop 13).take 32), tryIntoArr 33 Error.decode ((buf.drop 45).take 33) with
        | some depth, .ok parentFingerprint, .ok child, .ok chainCode, .ok keyBytes =>
          (wipeFrom 0 buf.length buf,
            .ok ⟨pfx, ⟨depth, parentFingerprint, ChildNumber.fromBytes child, chainCode⟩, keyBytes⟩)
        | _, _, _, _, _ => (buf, .panic)   -- unreachable: the ranges have the right lengths

/-- src/bip32/extended_key/mod.rs:71-104 `from_str` -/
def fromStr (H : Hashes) (base58 : Str) : Res Error ExtendedKey := (fromStrBuf H base58).2

/-- src/bip32/extended_key/mod.rs:107-111 `drop`: the key bytes left in memory. -/
def drop (k : ExtendedKey) : Bytes := zeroizeArr k.keyBytes

end ExtendedKey
end Kms.Bip32
