import Verif.Spec.Bits
import Verif.Data.English
import Verif.Data.ChineseSimplified
/-
BIP39, as the standard words it, independent of the model.
-/
namespace Kms.Spec

/-- The phrase lengths BIP39 allows. -/
def sizes : List Nat := [12, 15, 18, 21, 24]

/-- The entropy lengths BIP39 allows, in bytes (128 to 256 bits in steps of 32). -/
def entropyLengths : List Nat := [16, 20, 24, 28, 32]

/-- The list of `n` word numbers `idx` is the BIP39 encoding of the entropy `e`: `n` is an allowed phrase
length, every number is below 2048, and the numbers written as 11 bits each spell the bits of `e` followed by
the first `n / 3` bits of `SHA-256(e)`. -/
def Encodes (sha256 : List UInt8 → List UInt8) (idx : List Nat) (e : List UInt8) : Prop :=
  idx.length ∈ sizes ∧ (∀ i ∈ idx, i < 2048) ∧
  idx.flatMap (bitsOfNat 11) = bitsOfBytes e ++ (bitsOfBytes (sha256 e)).take (idx.length / 3)

/-- `ws` is the list of words with numbers `idx` in the list `wl`. -/
def WordsAt (wl : List (List Char)) (ws : List (List Char)) (idx : List Nat) : Prop :=
  ws.map some = idx.map (fun i => wl[i]?)

/-- Words separated by single spaces. -/
def spaced : List (List Char) → List Char
  | [] => []
  | [w] => w
  | w :: ws => w ++ ' ' :: spaced ws

/-- PBKDF2 (RFC 8018) with a single output block: `U_1 = PRF(P, S ‖ INT(1))`, `U_{j+1} = PRF(P, U_j)`. -/
def pbkdf2U (prf : List UInt8 → List UInt8 → List UInt8) (p s : List UInt8) : Nat → List UInt8
  | 0 => prf p (s ++ [0, 0, 0, 1])
  | j + 1 => prf p (pbkdf2U prf p s j)

/-- `T_1 = U_1 ⊕ … ⊕ U_c` (`c = n + 1`). -/
def pbkdf2T (prf : List UInt8 → List UInt8 → List UInt8) (p s : List UInt8) : Nat → List UInt8
  | 0 => pbkdf2U prf p s 0
  | n + 1 => List.zipWith (· ^^^ ·) (pbkdf2T prf p s n) (pbkdf2U prf p s (n + 1))

/-- HMAC (RFC 2104) with 128-byte blocks and 64-byte output: `H(K' ⊕ opad ‖ H(K' ⊕ ipad ‖ m))`, where `K'` is the key, hashed first if it is longer
than a block, zero-padded to a block. -/
def hmac (h : List UInt8 → List UInt8) (key m : List UInt8) : List UInt8 :=
  let k0 := if key.length > 128 then h key else key
  let pad (x : UInt8) := (List.range 128).map (fun i => k0.getD i 0 ^^^ x)
  h (pad 0x5c ++ h (pad 0x36 ++ m))

end Kms.Spec
