import Verif.Model.Crypto
/-
Crate bs58 0.4.0 with feature `check`, as used by src/bip32/extended_key/mod.rs and src/bip32/prefix.rs.
The output buffer is modelled by its used part (little-endian digits, as the crate keeps them while it works) and
its capacity.
-/
namespace Kms.Base58

/-- `bs58::Alphabet::BITCOIN`.
Used in src/bip32/extended_key/mod.rs:52 and src/bip32/prefix.rs:95 (encoding), src/bip32/extended_key/mod.rs:73 (decoding). -/
def alphabet : Str := "123456789ABCDEFGHJKLMNPQRSTUVWXYZabcdefghijkmnopqrstuvwxyz".toList

/-- `bs58::encode::Error`.  Turned into an error of the library at src/bip32/error.rs:59-63. -/
inductive EncodeError where
  | bufferTooSmall
  deriving DecidableEq, Repr

/-- `bs58::decode::Error` (the payloads of the variants are dropped: src/bip32/error.rs:53-57 discards them). -/
inductive DecodeError where
  | bufferTooSmall | invalidCharacter | nonAsciiCharacter | invalidChecksum | noChecksum
  deriving DecidableEq, Repr

/-- The loop `for byte in &mut output[..index] { carry += (*byte) * mul; *byte = carry % base; carry /= base }`
shared by encoding (`mul = 256`, `base = 58`) and decoding (`mul = 58`, `base = 256`): the new digits and the carry.
Used in src/bip32/extended_key/mod.rs:52 and src/bip32/prefix.rs:95 (encoding), src/bip32/extended_key/mod.rs:73 (decoding). -/
def mulAdd (mul base : Nat) : List Nat → Nat → List Nat × Nat
  | [], carry => ([], carry)
  | d :: ds, carry =>
    let c := carry + d * mul
    let r := mulAdd mul base ds (c / base)
    (c % base :: r.1, r.2)

/-- The loop `while carry > 0 { output[index] = carry % base; index += 1; carry /= base }`, which fails when the
buffer is full: the digits written so far, and whether all went in.  `fuel` bounds the iterations; the carry itself
is always enough.
Used in src/bip32/extended_key/mod.rs:52 and src/bip32/prefix.rs:95 (encoding), src/bip32/extended_key/mod.rs:73 (decoding). -/
def pushCarry (base cap : Nat) : Nat → List Nat → Nat → List Nat × Bool
  | 0, ds, carry => (ds, carry == 0)
  | fuel + 1, ds, carry =>
    if carry > 0 then
      if ds.length = cap then (ds, false)
      else pushCarry base cap fuel (ds ++ [carry % base]) (carry / base)
    else (ds, true)

/-- One input symbol: multiply the buffer and add.
Used in src/bip32/extended_key/mod.rs:52 and src/bip32/prefix.rs:95 (encoding), src/bip32/extended_key/mod.rs:73 (decoding). -/
def step (mul base cap : Nat) (ds : List Nat) (v : Nat) : List Nat × Bool :=
  let r := mulAdd mul base ds v
  pushCarry base cap r.2 r.1 r.2

/-- The loop over the leading zero symbols: one zero digit each.
Used in src/bip32/extended_key/mod.rs:52 and src/bip32/prefix.rs:95 (encoding), src/bip32/extended_key/mod.rs:73 (decoding). -/
def pushZeros (cap : Nat) : Nat → List Nat → List Nat × Bool
  | 0, ds => (ds, true)
  | k + 1, ds => if ds.length = cap then (ds, false) else pushZeros cap k (ds ++ [0])

/-- The main loop of `encode_into`.  Used in src/bip32/extended_key/mod.rs:52 and src/bip32/prefix.rs:95. -/
def encodeLoop (cap : Nat) : Bytes → List Nat → List Nat × Bool
  | [], ds => (ds, true)
  | v :: rest, ds =>
    match step 256 58 cap ds v.toNat with
    | (ds', true) => encodeLoop cap rest ds'
    | (ds', false) => (ds', false)

/-- `encode_into`: the text, or `BufferTooSmall`.  Used in src/bip32/extended_key/mod.rs:52 and src/bip32/prefix.rs:95. -/
def encodeInto (cap : Nat) (input : Bytes) : Res EncodeError Str :=
  match encodeLoop cap input [] with
  | (_, false) => .err .bufferTooSmall
  | (ds, true) =>
    match pushZeros cap (input.takeWhile (· = 0)).length ds with
    | (_, false) => .err .bufferTooSmall
    | (ds, true) => .ok ((ds.map (fun d => alphabet.getD d '1')).reverse)

/-- First four bytes of SHA-256 applied twice.
Used in src/bip32/extended_key/mod.rs:52 and src/bip32/prefix.rs:95 (encoding), src/bip32/extended_key/mod.rs:73 (decoding). -/
def checksum (H : Hashes) (input : Bytes) : Bytes := (H.sha256 (H.sha256 input).1).1.take 4

/-- `bs58::encode(input).with_check().into(output)`: `encode_check_into` without version byte.
Used in src/bip32/extended_key/mod.rs:52 and src/bip32/prefix.rs:95. -/
def encodeCheck (H : Hashes) (cap : Nat) (input : Bytes) : Res EncodeError Str :=
  encodeInto cap (input ++ checksum H input)

/-- `alpha.decode[c]`: the value of a character, `None` for 0xFF.  Used in src/bip32/extended_key/mod.rs:73. -/
def charVal (c : Char) : Option Nat := alphabet.idxOf? c

/-- The main loop of `decode_into`: what is in the buffer at the end, and the error if one occurred.
Used in src/bip32/extended_key/mod.rs:73. -/
def decodeLoop (cap : Nat) : Str → List Nat → List Nat × Option DecodeError
  | [], ds => (ds, none)
  | c :: rest, ds =>
    -- the input is UTF-8: every byte of a non-ASCII character is above 127
    if c.toNat > 127 then (ds, some .nonAsciiCharacter)
    else match charVal c with
      | none => (ds, some .invalidCharacter)
      | some v =>
        match step 58 256 cap ds v with
        | (ds', true) => decodeLoop cap rest ds'
        | (ds', false) => (ds', some .bufferTooSmall)

/-- A buffer of `cap` bytes that starts with the given digits and is zero after.  Used in src/bip32/extended_key/mod.rs:73. -/
def buffer (cap : Nat) (ds : List Nat) : Bytes :=
  ds.map UInt8.ofNat ++ List.replicate (cap - ds.length) 0

/-- `decode_into` on a zeroed buffer of `cap` bytes: the contents of the buffer afterwards, and the number of
bytes decoded or the error.  Used in src/bip32/extended_key/mod.rs:73. -/
def decodeInto (cap : Nat) (input : Str) : Bytes × Res DecodeError Nat :=
  match decodeLoop cap input [] with
  | (ds, some e) => (buffer cap ds, .err e)
  | (ds, none) =>
    match pushZeros cap (input.takeWhile (· = '1')).length ds with
    | (ds, false) => (buffer cap ds, .err .bufferTooSmall)
    | (ds, true) => (buffer cap ds.reverse, .ok ds.length)

/-- `bs58::decode(input).with_check(None).into(output)`: `decode_check_into` on a zeroed buffer.
Used in src/bip32/extended_key/mod.rs:73. -/
def decodeCheck (H : Hashes) (cap : Nat) (input : Str) : Bytes × Res DecodeError Nat :=
  match decodeInto cap input with
  | (buf, .ok len) =>
    if len < 4 then (buf, .err .noChecksum)
    else if checksum H (buf.take (len - 4)) ≠ (buf.take len).drop (len - 4) then (buf, .err .invalidChecksum)
    else (buf, .ok (len - 4))
  | (buf, r) => (buf, r)

end Kms.Base58
