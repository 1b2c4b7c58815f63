import Verif.Model.Text
/-
HMAC-SHA512 (crate hmac 0.12) and PBKDF2 (crate pbkdf2 0.11) over an arbitrary SHA-512, and the helpers of
src/bip39/crypto.rs.
-/
namespace Kms

/-- bytewise exclusive or (`xor` in crate pbkdf2; stops at the shorter argument).  Used in src/bip39/crypto.rs:40. -/
def xorBytes (a b : Bytes) : Bytes := List.zipWith (· ^^^ ·) a b

namespace Hashes
variable (H : Hashes)

/-- `get_der_key` of crate hmac: keys longer than a block (128 bytes for SHA-512) are hashed first; the rest
of the block is zero.
Used in src/bip32/extended_key/extended_private_key.rs:71-74, 100-112 and src/bip32/extended_key/extended_public_key.rs:70-76
and, by PBKDF2, in src/bip39/crypto.rs:40. -/
def hmacKey (key : Bytes) : Bytes :=
  let k := if key.length ≤ 128 then key else (H.sha512 key).1
  k ++ List.replicate (128 - k.length) 0

/-- `Hmac::<Sha512>::new_from_slice(key)`, `update(msg)`, `finalize()`: inner hash over the key block
xored with 0x36 and the message, outer hash over the key block xored with 0x5c and the inner hash.
Used in src/bip32/extended_key/extended_private_key.rs:71-74, 100-112 and src/bip32/extended_key/extended_public_key.rs:70-76
and, by PBKDF2, in src/bip39/crypto.rs:40. -/
def hmacSha512 (key msg : Bytes) : ByteArr 64 :=
  let k := H.hmacKey key
  H.sha512 (k.map (· ^^^ 0x5c) ++ (H.sha512 (k.map (· ^^^ 0x36) ++ msg)).1)

/-- The loop `for _ in 1..rounds` of `pbkdf2_body`: `salt := prf(salt); chunk ^= salt`.  Used in src/bip39/crypto.rs:40. -/
def pbkdf2Loop (password : Bytes) : Nat → Bytes → Bytes → Bytes
  | 0, _, chunk => chunk
  | n + 1, salt, chunk =>
    let salt' := (H.hmacSha512 password salt).1
    pbkdf2Loop password n salt' (xorBytes chunk salt')

/-- `pbkdf2_body(i, chunk, prf, salt, rounds)` for a chunk of one whole block (64 bytes).  Used in src/bip39/crypto.rs:40. -/
def pbkdf2Body (i : Nat) (password salt : Bytes) (rounds : Nat) : Bytes :=
  let u := (H.hmacSha512 password (salt ++ natBE 4 (i + 1))).1
  pbkdf2Loop H password (rounds - 1) u (xorBytes (List.replicate 64 0) u)

/-- src/bip39/crypto.rs:37-43 `pbkdf2(input, salt)`: 2048 rounds and a 64-byte result, hence exactly one
chunk (`PBKDF2_ROUNDS`, `PBKDF2_BYTES` at src/bip39/crypto.rs:13-14). -/
def pbkdf2 (input : Bytes) (salt : Str) : Bytes := H.pbkdf2Body 0 input (utf8 salt) 2048

/-- src/bip39/crypto.rs:18-20 `sha256_first_byte` -/
def sha256FirstByte (input : Bytes) : UInt8 := (H.sha256 input).1[0]'(by rw [(H.sha256 input).2]; decide)

end Hashes
end Kms
