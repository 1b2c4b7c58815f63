import Verif.Model.Profile
import Verif.Model.Base58
/-
The loops of crate bs58 0.4.0 (`encode_into`, `decode_into`, `decode_check_into`) with machine integers, for any build profile:
dependencies are compiled with the profile of the crate.  Called by src/bip32/extended_key/mod.rs:51-54 and :70-76 and by
src/bip32/prefix.rs:95.
-/
namespace Kms.Base58
variable {ε : Type}

/-- Encoding: `for byte in &mut output[..index] { carry += (*byte as usize) << 8; *byte = (carry % 58) as u8; carry /= 58 }`.
Used in src/bip32/extended_key/mod.rs:52 and src/bip32/prefix.rs:95. -/
def mulAddEncP (P : Profile) : List Nat → Nat → Res ε (List Nat × Nat)
  | [], carry => .ok ([], carry)
  | d :: ds, carry => do
    let s ← P.shl (BitVec.ofNat P.usizeBits d) 8
    let c ← P.add P.usizeBits carry s.toNat
    let r ← mulAddEncP P ds (c / 58)
    .ok ((c % 58) % 256 :: r.1, r.2)

/-- Decoding: `for byte in &mut output[..index] { val += (*byte as usize) * 58; *byte = (val & 0xFF) as u8; val >>= 8 }`.
Used in src/bip32/extended_key/mod.rs:73. -/
def mulAddDecP (P : Profile) : List Nat → Nat → Res ε (List Nat × Nat)
  | [], val => .ok ([], val)
  | d :: ds, val => do
    let s ← P.mul P.usizeBits d 58
    let v ← P.add P.usizeBits val s
    let q ← P.shr (BitVec.ofNat P.usizeBits v) 8
    let r ← mulAddDecP P ds q.toNat
    .ok ((v &&& 0xFF) :: r.1, r.2)

/-- Encoding: `while carry > 0 { if index == output.len() { return Err } output[index] = (carry % 58) as u8; index += 1;
carry /= 58 }`.  The first argument after the capacity bounds the iterations.
Used in src/bip32/extended_key/mod.rs:52 and src/bip32/prefix.rs:95. -/
def pushCarryEncP (P : Profile) (cap : Nat) : Nat → List Nat → Nat → Res ε (List Nat × Bool)
  | 0, ds, carry => .ok (ds, carry == 0)
  | fuel + 1, ds, carry =>
    if carry > 0 then
      if ds.length = cap then .ok (ds, false)
      else do
        let _ ← P.add P.usizeBits ds.length 1
        pushCarryEncP P cap fuel (ds ++ [(carry % 58) % 256]) (carry / 58)
    else .ok (ds, true)

/-- Decoding: `while val > 0 { output.get_mut(index)? = (val & 0xFF) as u8; index += 1; val >>= 8 }`.
Used in src/bip32/extended_key/mod.rs:73. -/
def pushCarryDecP (P : Profile) (cap : Nat) : Nat → List Nat → Nat → Res ε (List Nat × Bool)
  | 0, ds, val => .ok (ds, val == 0)
  | fuel + 1, ds, val =>
    if val > 0 then
      if ds.length = cap then .ok (ds, false)
      else do
        let _ ← P.add P.usizeBits ds.length 1
        let q ← P.shr (BitVec.ofNat P.usizeBits val) 8
        pushCarryDecP P cap fuel (ds ++ [val &&& 0xFF]) q.toNat
    else .ok (ds, true)

/-- The loop over the leading zero symbols, with `index += 1`.
Used in src/bip32/extended_key/mod.rs:52 and src/bip32/prefix.rs:95 (encoding), src/bip32/extended_key/mod.rs:73 (decoding). -/
def pushZerosP (P : Profile) (cap : Nat) : Nat → List Nat → Res ε (List Nat × Bool)
  | 0, ds => .ok (ds, true)
  | k + 1, ds =>
    if ds.length = cap then .ok (ds, false)
    else do
      let _ ← P.add P.usizeBits ds.length 1
      pushZerosP P cap k (ds ++ [0])

/-- The main loop of `encode_into`.  Used in src/bip32/extended_key/mod.rs:52 and src/bip32/prefix.rs:95. -/
def encodeLoopP (P : Profile) (cap : Nat) : Bytes → List Nat → Res ε (List Nat × Bool)
  | [], ds => .ok (ds, true)
  | v :: rest, ds => do
    let r ← mulAddEncP P ds v.toNat
    match ← pushCarryEncP P cap r.2 r.1 r.2 with
    | (ds', true) => encodeLoopP P cap rest ds'
    | (ds', false) => .ok (ds', false)

/-- `encode_into`.  Used in src/bip32/extended_key/mod.rs:52 and src/bip32/prefix.rs:95. -/
def encodeIntoP (P : Profile) (cap : Nat) (input : Bytes) : Res EncodeError Str := do
  match ← encodeLoopP P cap input [] with
  | (_, false) => .err .bufferTooSmall
  | (ds, true) =>
    match ← pushZerosP P cap (input.takeWhile (· = 0)).length ds with
    | (_, false) => .err .bufferTooSmall
    | (ds, true) => .ok ((ds.map (fun d => alphabet.getD d '1')).reverse)

/-- `encode_check_into`.  Used in src/bip32/extended_key/mod.rs:52 and src/bip32/prefix.rs:95. -/
def encodeCheckP (P : Profile) (H : Hashes) (cap : Nat) (input : Bytes) : Res EncodeError Str :=
  encodeIntoP P cap (input ++ checksum H input)

/-- The main loop of `decode_into`.  Used in src/bip32/extended_key/mod.rs:73. -/
def decodeLoopP (P : Profile) (cap : Nat) : Str → List Nat → Res ε (List Nat × Option DecodeError)
  | [], ds => .ok (ds, none)
  | c :: rest, ds =>
    if c.toNat > 127 then .ok (ds, some .nonAsciiCharacter)
    else match charVal c with
      | none => .ok (ds, some .invalidCharacter)
      | some v => do
        let r ← mulAddDecP P ds v
        match ← pushCarryDecP P cap r.2 r.1 r.2 with
        | (ds', true) => decodeLoopP P cap rest ds'
        | (ds', false) => .ok (ds', some .bufferTooSmall)

/-- `decode_into` on a zeroed buffer: the panic of an overflow, or the buffer and the outcome.
Used in src/bip32/extended_key/mod.rs:73. -/
def decodeIntoP (P : Profile) (cap : Nat) (input : Str) : Res ε (Bytes × Res DecodeError Nat) := do
  match ← decodeLoopP P cap input [] with
  | (ds, some e) => .ok (buffer cap ds, .err e)
  | (ds, none) =>
    match ← pushZerosP P cap (input.takeWhile (· = '1')).length ds with
    | (ds, false) => .ok (buffer cap ds, .err .bufferTooSmall)
    | (ds, true) => .ok (buffer cap ds.reverse, .ok ds.length)

/-- `decode_check_into` on a zeroed buffer.  Used in src/bip32/extended_key/mod.rs:73. -/
def decodeCheckP (P : Profile) (H : Hashes) (cap : Nat) (input : Str) : Res ε (Bytes × Res DecodeError Nat) := do
  match ← decodeIntoP P cap input with
  | (buf, .ok len) =>
    if len < 4 then .ok (buf, .err .noChecksum)
    else do
      let i ← P.sub P.usizeBits len 4
      if checksum H (buf.take i) ≠ (buf.take len).drop i then .ok (buf, .err .invalidChecksum)
      else .ok (buf, .ok i)
  | (buf, r) => .ok (buf, r)

end Kms.Base58
