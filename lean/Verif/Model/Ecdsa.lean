import Verif.Model.Crypto
import Verif.Model.Secp256k1
/-
src/lib.rs `ecdsa_sign`, src/error.rs, src/crypto.rs, with the parts of libsecp256k1 0.7.1 and hmac-drbg 0.3.0 they call.
-/
namespace Kms

namespace Hashes
variable (H : Hashes)

/-- HMAC-SHA256 (`Hmac<Sha256>` of crate hmac 0.8, used by hmac-drbg): as `hmacSha512`, with blocks of 64 bytes.
Used in src/lib.rs:16. -/
def hmacSha256 (key msg : Bytes) : ByteArr 32 :=
  let k := if key.length ≤ 64 then key else (H.sha256 key).1
  let k := k ++ List.replicate (64 - k.length) 0
  H.sha256 (k.map (· ^^^ 0x5c) ++ (H.sha256 (k.map (· ^^^ 0x36) ++ msg)).1)

end Hashes

/-- `HmacDRBG<Sha256>` of crate hmac-drbg (its call counter is left out: nothing reads it).  Used in src/lib.rs:16. -/
structure Drbg where
  k : ByteArr 32
  v : ByteArr 32

namespace Drbg

/-- `HmacDRBG::update(seeds)`: with no seeds the second half is skipped.  Used in src/lib.rs:16. -/
def update (H : Hashes) (d : Drbg) (seeds : Option (List Bytes)) : Drbg :=
  let k := H.hmacSha256 d.k.1 (d.v.1 ++ [0] ++ (seeds.getD []).flatten)
  let v := H.hmacSha256 k.1 d.v.1
  match seeds with
  | none => ⟨k, v⟩
  | some seeds =>
    let k := H.hmacSha256 k.1 (v.1 ++ [1] ++ seeds.flatten)
    let v := H.hmacSha256 k.1 v.1
    ⟨k, v⟩

/-- `HmacDRBG::new(entropy, nonce, pers)`.  Used in src/lib.rs:16. -/
def new (H : Hashes) (entropy nonce pers : Bytes) : Drbg :=
  update H ⟨zeroArr 32, ⟨List.replicate 32 1, by simp⟩⟩ (some [entropy, nonce, pers])

/-- `HmacDRBG::generate::<U32>(None)`: 32 bytes and the new state.  Used in src/lib.rs:16. -/
def generate (H : Hashes) (d : Drbg) : ByteArr 32 × Drbg :=
  let v := H.hmacSha256 d.k.1 d.v.1
  (v, update H ⟨d.k, v⟩ none)

end Drbg

namespace Secp

/-- `Message::parse_slice`: 32 bytes, reduced modulo the group order (`Scalar::set_b32`).  Used in src/lib.rs:15. -/
def parseMessage (b : Bytes) : Res Error Nat :=
  if b.length ≠ 32 then .err .invalidInputLength else .ok (beNat b % n)

/-- `Scalar::inv`: power n - 2.  Used in src/lib.rs:16. -/
def invN (a : Nat) : Nat := powMod 256 a (n - 2) n

/-- `Scalar::is_high`: above half the group order.  Used in src/lib.rs:16. -/
def isHigh (s : Nat) : Bool := decide (n / 2 < s)

/-- What one call of `sign_raw` does: a signature (r, s) with its recovery id, or an error (the caller tries the next
nonce).  Used in src/lib.rs:16. -/
abbrev RawSig := Nat × Nat × Nat

/-- `ECMultGenContext::sign_raw`.  `debug` says whether the program was built with debug assertions: then r = 0 or an
x coordinate of at least n is a panic.  The nonce is in [1, n - 1], so that the point is not infinity.
Used in src/lib.rs:16. -/
def signRaw (debug : Bool) (seckey message nonce : Nat) : Res Error RawSig :=
  let R := PublicKey.ofPt (mul 256 nonce G)
  let overflow := decide (n ≤ R.x)
  let sigr := R.x % n
  if debug && (sigr == 0 || overflow) then .panic
  else
    let recid := (if overflow then 2 else 0) + (if R.y % 2 = 1 then 1 else 0)
    let sigs := invN nonce * ((sigr * seckey + message) % n) % n
    if sigs = 0 then .err .invalidMessage
    else if isHigh sigs then .ok (sigr, n - sigs, recid ^^^ 1)
    else .ok (sigr, sigs, recid)

/-- The loop of `sign_with_context`, at most `fuel` turns (`none`: still running).  A nonce that is 0 or at least n, or
for which `sign_raw` errs, is skipped.  Used in src/lib.rs:16. -/
def signLoop (H : Hashes) (debug : Bool) (seckey message : Nat) : Nat → Drbg → Option (Res Error RawSig)
  | 0, _ => none
  | fuel + 1, drbg =>
    let (generated, drbg) := drbg.generate H
    let nonce := beNat generated.1
    if nonce < n ∧ nonce ≠ 0 then
      match signRaw debug seckey message nonce with
      | .ok val => some (.ok val)
      | .panic => some .panic
      | .err _ => signLoop H debug seckey message fuel drbg
    else signLoop H debug seckey message fuel drbg

/-- `libsecp256k1::sign` (`sign_with_context`).  Used in src/lib.rs:16. -/
def sign (H : Hashes) (debug : Bool) (fuel : Nat) (message : Nat) (seckey : SecretKey) : Option (Res Error RawSig) :=
  signLoop H debug seckey.k message fuel (Drbg.new H seckey.serialize.1 (natBE 32 message) [])

/-- `Signature::serialize`: r and s, 32 bytes each.  Used in src/lib.rs:17. -/
def serializeSig (r s : Nat) : ByteArr 64 := ⟨natBE 32 r ++ natBE 32 s, by simp⟩

end Secp

/-- src/error.rs:2-6 -/
inductive TopError where
  | secp256k1Error (e : Secp.Error)
  deriving DecidableEq, Repr

/-- src/error.rs:2-6, `#[error("secp256k1 error")]`: the message says nothing of the cause. -/
def TopError.display : TopError → Str
  | .secp256k1Error _ => "secp256k1 error".toList

/-- src/error.rs:5, `#[from]`: `Error::source` is the cause, and `?` wraps the cause. -/
def TopError.source : TopError → Option Secp.Error
  | .secp256k1Error e => some e

/-- src/lib.rs:14-19 `ecdsa_sign`.  `none`: the signing loop is still running after `fuel` turns. -/
def ecdsaSign (H : Hashes) (debug : Bool) (fuel : Nat) (secret : Secp.SecretKey) (bytes : Bytes) :
    Option (Res TopError (ByteArr 64 × UInt8)) :=
  match Secp.parseMessage bytes with
  | .err e => some (.err (.secp256k1Error e))
  | .panic => some .panic
  | .ok message =>
    (Secp.sign H debug fuel message secret).map fun r =>
      (r.mapErr .secp256k1Error).map fun (r, s, recid) => (Secp.serializeSig r s, UInt8.ofNat recid)

/-- src/crypto.rs:4-13 `ripemd`; `hex::encode` prints lowercase. -/
def ripemd (H : Hashes) (msg : Bytes) : Str := hexBytes false (H.ripemd160 msg).1

end Kms
