import Verif.Model.Prelude
/-
The real SHA-256, SHA-512 (FIPS 180-4) and RIPEMD-160, written on natural numbers so that the kernel can run
them.  No theorem of the property list depends on this file: the properties hold for every `Hashes`.  It supplies
the concrete instance used by the worked examples (test vectors of /repo and of BIP32/BIP39).
-/
namespace Kms.Real

/-- Merkle-Damgård padding: 0x80, zeros, bit length on `lenBytes` bytes.
Used in src/bip39/crypto.rs:19, 40, src/bip32/mod.rs:40, src/bip32/public_key.rs:32 and src/crypto.rs:6-12. -/
def pad (block lenBytes : Nat) (le : Bool) (m : Bytes) : Bytes :=
  let l := m.length
  let z := (block - (l + 1 + lenBytes) % block) % block
  let len := natBE lenBytes (8 * l)
  m ++ 0x80 :: List.replicate z 0 ++ (if le then len.reverse else len)

/-- Cut into pieces of `k` bytes, read big-endian (or little-endian).
Used in src/bip39/crypto.rs:19, 40, src/bip32/mod.rs:40, src/bip32/public_key.rs:32 and src/crypto.rs:6-12. -/
def wordsOf (k : Nat) (le : Bool) : Nat → Bytes → List Nat
  | 0, _ => []
  | n + 1, m => (if le then beNat (m.take k).reverse else beNat (m.take k)) :: wordsOf k le n (m.drop k)

/-- Parameters of SHA-2.  Used in src/bip39/crypto.rs:19, 40, src/bip32/mod.rs:40 and src/bip32/public_key.rs:32. -/
structure Sha2 where
  w : Nat
  k : List Nat
  init : List Nat
  S0 : Nat × Nat × Nat
  S1 : Nat × Nat × Nat
  s0 : Nat × Nat × Nat
  s1 : Nat × Nat × Nat

/-- rotate right on `w` bits.  Used in src/bip39/crypto.rs:19, 40, src/bip32/mod.rs:40 and src/bip32/public_key.rs:32. -/
def rotr (w x n : Nat) : Nat := (x >>> n) ||| ((x <<< (w - n)) % 2 ^ w)

/-- message schedule, built from the last sixteen words (newest first).
Used in src/bip39/crypto.rs:19, 40, src/bip32/mod.rs:40 and src/bip32/public_key.rs:32. -/
def schedule (P : Sha2) : Nat → List Nat → List Nat
  | 0, _ => []
  | n + 1, ws =>
    let x15 := ws.getD 14 0
    let x2 := ws.getD 1 0
    let a := rotr P.w x15 P.s0.1 ^^^ rotr P.w x15 P.s0.2.1 ^^^ (x15 >>> P.s0.2.2)
    let b := rotr P.w x2 P.s1.1 ^^^ rotr P.w x2 P.s1.2.1 ^^^ (x2 >>> P.s1.2.2)
    let t := (ws.getD 15 0 + a + ws.getD 6 0 + b) % 2 ^ P.w
    t :: schedule P n (t :: ws.take 15)

/-- one round.  Used in src/bip39/crypto.rs:19, 40, src/bip32/mod.rs:40 and src/bip32/public_key.rs:32. -/
def round (P : Sha2) (st : List Nat) (kw : Nat) : List Nat :=
  match st with
  | [a, b, c, d, e, f, g, h] =>
    let S1 := rotr P.w e P.S1.1 ^^^ rotr P.w e P.S1.2.1 ^^^ rotr P.w e P.S1.2.2
    let ch := (e &&& f) ^^^ ((e ^^^ (2 ^ P.w - 1)) &&& g)
    let t1 := h + S1 + ch + kw
    let S0 := rotr P.w a P.S0.1 ^^^ rotr P.w a P.S0.2.1 ^^^ rotr P.w a P.S0.2.2
    let mj := (a &&& b) ^^^ (a &&& c) ^^^ (b &&& c)
    [(t1 + S0 + mj) % 2 ^ P.w, a, b, c, (d + t1) % 2 ^ P.w, e, f, g]
  | _ => st

/-- compress one block (given as sixteen words).
Used in src/bip39/crypto.rs:19, 40, src/bip32/mod.rs:40 and src/bip32/public_key.rs:32. -/
def compress (P : Sha2) (st : List Nat) (ws : List Nat) : List Nat :=
  let all := ws ++ schedule P (P.k.length - 16) ws.reverse
  let out := (List.zipWith (· + ·) P.k all).foldl (round P) st
  List.zipWith (fun x y => (x + y) % 2 ^ P.w) st out

/-- all blocks.  Used in src/bip39/crypto.rs:19, 40, src/bip32/mod.rs:40 and src/bip32/public_key.rs:32. -/
def blocks (P : Sha2) : Nat → List Nat → Bytes → List Nat
  | 0, st, _ => st
  | n + 1, st, m => blocks P n (compress P st (wordsOf (P.w / 8) false 16 m)) (m.drop (2 * P.w))

/-- the hash.  Used in src/bip39/crypto.rs:19, 40, src/bip32/mod.rs:40 and src/bip32/public_key.rs:32. -/
def sha2 (P : Sha2) (m : Bytes) : Bytes :=
  let p := pad (2 * P.w) (P.w / 4) false m
  (blocks P (p.length / (2 * P.w)) P.init p).flatMap (natBE (P.w / 8))

/-- FIPS 180-4 section 4.2.2, 5.3.3.  Used in src/bip39/crypto.rs:19 and src/bip32/public_key.rs:32. -/
def sha256P : Sha2 where
  w := 32
  S0 := (2, 13, 22)
  S1 := (6, 11, 25)
  s0 := (7, 18, 3)
  s1 := (17, 19, 10)
  init := [
   0x6a09e667, 0xbb67ae85, 0x3c6ef372, 0xa54ff53a, 0x510e527f, 0x9b05688c, 0x1f83d9ab, 0x5be0cd19]
  k := [
   0x428a2f98, 0x71374491, 0xb5c0fbcf, 0xe9b5dba5, 0x3956c25b, 0x59f111f1, 0x923f82a4, 0xab1c5ed5,
   0xd807aa98, 0x12835b01, 0x243185be, 0x550c7dc3, 0x72be5d74, 0x80deb1fe, 0x9bdc06a7, 0xc19bf174,
   0xe49b69c1, 0xefbe4786, 0x0fc19dc6, 0x240ca1cc, 0x2de92c6f, 0x4a7484aa, 0x5cb0a9dc, 0x76f988da,
   0x983e5152, 0xa831c66d, 0xb00327c8, 0xbf597fc7, 0xc6e00bf3, 0xd5a79147, 0x06ca6351, 0x14292967,
   0x27b70a85, 0x2e1b2138, 0x4d2c6dfc, 0x53380d13, 0x650a7354, 0x766a0abb, 0x81c2c92e, 0x92722c85,
   0xa2bfe8a1, 0xa81a664b, 0xc24b8b70, 0xc76c51a3, 0xd192e819, 0xd6990624, 0xf40e3585, 0x106aa070,
   0x19a4c116, 0x1e376c08, 0x2748774c, 0x34b0bcb5, 0x391c0cb3, 0x4ed8aa4a, 0x5b9cca4f, 0x682e6ff3,
   0x748f82ee, 0x78a5636f, 0x84c87814, 0x8cc70208, 0x90befffa, 0xa4506ceb, 0xbef9a3f7, 0xc67178f2]

/-- FIPS 180-4 section 4.2.3, 5.3.5.  Used in src/bip39/crypto.rs:40 and src/bip32/mod.rs:40. -/
def sha512P : Sha2 where
  w := 64
  S0 := (28, 34, 39)
  S1 := (14, 18, 41)
  s0 := (1, 8, 7)
  s1 := (19, 61, 6)
  init := [
   0x6a09e667f3bcc908, 0xbb67ae8584caa73b, 0x3c6ef372fe94f82b, 0xa54ff53a5f1d36f1,
   0x510e527fade682d1, 0x9b05688c2b3e6c1f, 0x1f83d9abfb41bd6b, 0x5be0cd19137e2179]
  k := [
   0x428a2f98d728ae22, 0x7137449123ef65cd, 0xb5c0fbcfec4d3b2f, 0xe9b5dba58189dbbc,
   0x3956c25bf348b538, 0x59f111f1b605d019, 0x923f82a4af194f9b, 0xab1c5ed5da6d8118,
   0xd807aa98a3030242, 0x12835b0145706fbe, 0x243185be4ee4b28c, 0x550c7dc3d5ffb4e2,
   0x72be5d74f27b896f, 0x80deb1fe3b1696b1, 0x9bdc06a725c71235, 0xc19bf174cf692694,
   0xe49b69c19ef14ad2, 0xefbe4786384f25e3, 0x0fc19dc68b8cd5b5, 0x240ca1cc77ac9c65,
   0x2de92c6f592b0275, 0x4a7484aa6ea6e483, 0x5cb0a9dcbd41fbd4, 0x76f988da831153b5,
   0x983e5152ee66dfab, 0xa831c66d2db43210, 0xb00327c898fb213f, 0xbf597fc7beef0ee4,
   0xc6e00bf33da88fc2, 0xd5a79147930aa725, 0x06ca6351e003826f, 0x142929670a0e6e70,
   0x27b70a8546d22ffc, 0x2e1b21385c26c926, 0x4d2c6dfc5ac42aed, 0x53380d139d95b3df,
   0x650a73548baf63de, 0x766a0abb3c77b2a8, 0x81c2c92e47edaee6, 0x92722c851482353b,
   0xa2bfe8a14cf10364, 0xa81a664bbc423001, 0xc24b8b70d0f89791, 0xc76c51a30654be30,
   0xd192e819d6ef5218, 0xd69906245565a910, 0xf40e35855771202a, 0x106aa07032bbd1b8,
   0x19a4c116b8d2d0c8, 0x1e376c085141ab53, 0x2748774cdf8eeb99, 0x34b0bcb5e19b48a8,
   0x391c0cb3c5c95a63, 0x4ed8aa4ae3418acb, 0x5b9cca4f7763e373, 0x682e6ff3d6b2b8a3,
   0x748f82ee5defb2fc, 0x78a5636f43172f60, 0x84c87814a1f0ab72, 0x8cc702081a6439ec,
   0x90befffa23631e28, 0xa4506cebde82bde9, 0xbef9a3f7b2c67915, 0xc67178f2e372532b,
   0xca273eceea26619c, 0xd186b8c721c0c207, 0xeada7dd6cde0eb1e, 0xf57d4f7fee6ed178,
   0x06f067aa72176fba, 0x0a637dc5a2c898a6, 0x113f9804bef90dae, 0x1b710b35131c471b,
   0x28db77f523047d84, 0x32caab7b40c72493, 0x3c9ebe0a15c9bebc, 0x431d67c49c100d4c,
   0x4cc5d4becb3e42b6, 0x597f299cfc657e2a, 0x5fcb6fab3ad6faec, 0x6c44198c4a475817]

/-- rotate left on 32 bits.  Used in src/bip32/public_key.rs:32 and src/crypto.rs:6-12. -/
def rol (x n : Nat) : Nat := ((x <<< n) % 2 ^ 32) ||| (x >>> (32 - n))

/-- the five boolean functions of RIPEMD-160.  Used in src/bip32/public_key.rs:32 and src/crypto.rs:6-12. -/
def rmdF (j x y z : Nat) : Nat :=
  let nx (v : Nat) := v ^^^ 0xffffffff
  match j with
  | 0 => x ^^^ y ^^^ z
  | 1 => (x &&& y) ||| (nx x &&& z)
  | 2 => (x ||| nx y) ^^^ z
  | 3 => (x &&& z) ||| (y &&& nx z)
  | _ => x ^^^ (y ||| nx z)

/-- one line of RIPEMD-160: steps given as (function, constant, message word, rotation).
Used in src/bip32/public_key.rs:32 and src/crypto.rs:6-12. -/
def rmdStep (st : List Nat) (q : Nat × Nat × Nat × Nat) : List Nat :=
  match st with
  | [a, b, c, d, e] =>
    let t := (rol ((a + rmdF q.1 b c d + q.2.2.1 + q.2.1) % 2 ^ 32) q.2.2.2 + e) % 2 ^ 32
    [e, t, b, rol c 10, d]
  | _ => st

/-- message word selection, left line.  Used in src/bip32/public_key.rs:32 and src/crypto.rs:6-12. -/
def rmdR1 : List Nat := [0, 1, 2, 3, 4, 5, 6, 7, 8, 9, 10, 11, 12, 13, 14, 15, 7, 4, 13, 1, 10, 6, 15, 3, 12, 0, 9, 5, 2, 14, 11, 8, 3, 10, 14, 4, 9, 15, 8, 1, 2, 7, 0, 6, 13, 11, 5, 12, 1, 9, 11, 10, 0, 8, 12, 4, 13, 3, 7, 15, 14, 5, 6, 2, 4, 0, 5, 9, 7, 12, 2, 10, 14, 1, 3, 8, 11, 6, 15, 13]
/-- message word selection, right line.  Used in src/bip32/public_key.rs:32 and src/crypto.rs:6-12. -/
def rmdR2 : List Nat := [5, 14, 7, 0, 9, 2, 11, 4, 13, 6, 15, 8, 1, 10, 3, 12, 6, 11, 3, 7, 0, 13, 5, 10, 14, 15, 8, 12, 4, 9, 1, 2, 15, 5, 1, 3, 7, 14, 6, 9, 11, 8, 12, 2, 10, 0, 4, 13, 8, 6, 4, 1, 3, 11, 15, 0, 5, 12, 2, 13, 9, 7, 10, 14, 12, 15, 10, 4, 1, 5, 8, 7, 6, 2, 13, 14, 0, 3, 9, 11]
/-- rotations, left line.  Used in src/bip32/public_key.rs:32 and src/crypto.rs:6-12. -/
def rmdS1 : List Nat := [11, 14, 15, 12, 5, 8, 7, 9, 11, 13, 14, 15, 6, 7, 9, 8, 7, 6, 8, 13, 11, 9, 7, 15, 7, 12, 15, 9, 11, 7, 13, 12, 11, 13, 6, 7, 14, 9, 13, 15, 14, 8, 13, 6, 5, 12, 7, 5, 11, 12, 14, 15, 14, 15, 9, 8, 9, 14, 5, 6, 8, 6, 5, 12, 9, 15, 5, 11, 6, 8, 13, 12, 5, 12, 13, 14, 11, 8, 5, 6]
/-- rotations, right line.  Used in src/bip32/public_key.rs:32 and src/crypto.rs:6-12. -/
def rmdS2 : List Nat := [8, 9, 9, 11, 13, 15, 15, 5, 7, 7, 8, 11, 14, 14, 12, 6, 9, 13, 15, 7, 12, 8, 9, 11, 7, 7, 12, 7, 6, 15, 13, 11, 9, 7, 15, 11, 8, 6, 6, 14, 12, 13, 5, 14, 13, 13, 7, 5, 15, 5, 8, 11, 14, 14, 6, 14, 6, 9, 12, 9, 12, 5, 15, 8, 8, 5, 12, 9, 12, 5, 14, 6, 8, 13, 6, 5, 15, 13, 11, 11]

/-- compress one block.  Used in src/bip32/public_key.rs:32 and src/crypto.rs:6-12. -/
def rmdCompress (st : List Nat) (x : List Nat) : List Nat :=
  let kl := [0x00000000, 0x5a827999, 0x6ed9eba1, 0x8f1bbcdc, 0xa953fd4e]
  let kr := [0x50a28be6, 0x5c4dd124, 0x6d703ef3, 0x7a6d76e9, 0x00000000]
  let steps1 := (List.range 80).map fun j => (j / 16, kl.getD (j / 16) 0, x.getD (rmdR1.getD j 0) 0, rmdS1.getD j 0)
  let steps2 := (List.range 80).map fun j => (4 - j / 16, kr.getD (j / 16) 0, x.getD (rmdR2.getD j 0) 0, rmdS2.getD j 0)
  match st, steps1.foldl rmdStep st, steps2.foldl rmdStep st with
  | [h0, h1, h2, h3, h4], [a, b, c, d, e], [a', b', c', d', e'] =>
    [(h1 + c + d') % 2 ^ 32, (h2 + d + e') % 2 ^ 32, (h3 + e + a') % 2 ^ 32, (h4 + a + b') % 2 ^ 32,
     (h0 + b + c') % 2 ^ 32]
  | _, _, _ => st

/-- all blocks.  Used in src/bip32/public_key.rs:32 and src/crypto.rs:6-12. -/
def rmdBlocks : Nat → List Nat → Bytes → List Nat
  | 0, st, _ => st
  | n + 1, st, m => rmdBlocks n (rmdCompress st (wordsOf 4 true 16 m)) (m.drop 64)

/-- RIPEMD-160.  Used in src/bip32/public_key.rs:32 and src/crypto.rs:6-12. -/
def rmd160 (m : Bytes) : Bytes :=
  let p := pad 64 8 true m
  (rmdBlocks (p.length / 64) [0x67452301, 0xefcdab89, 0x98badcfe, 0x10325476, 0xc3d2e1f0] p).flatMap
    (fun v => (natBE 4 v).reverse)

/-- Cut or fill to exactly `n` bytes (the hashes above already have the right size; this spares a proof).
Used in src/bip39/crypto.rs:19, 40, src/bip32/mod.rs:40, src/bip32/public_key.rs:32 and src/crypto.rs:6-12. -/
def fit (n : Nat) (b : Bytes) : ByteArr n :=
  ⟨(b ++ List.replicate n 0).take n, by simp⟩

/-- The real hash functions.
Used in src/bip39/crypto.rs:19, 40, src/bip32/mod.rs:40, src/bip32/public_key.rs:32 and src/crypto.rs:6-12. -/
def hashes : Hashes where
  sha256 m := fit 32 (sha2 sha256P m)
  sha512 m := fit 64 (sha2 sha512P m)
  ripemd160 m := fit 20 (rmd160 m)

end Kms.Real
