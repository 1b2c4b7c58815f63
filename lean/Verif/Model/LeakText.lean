import Verif.Model.Leak
import Verif.Model.ExtendedKey
/-
What someone who sees branches and memory accesses (as in Verif.Model.Leak) sees of writing an extended key as text and of
reading text as an extended key.  The values are those of `Verif.Model.Base58` and `Verif.Model.ExtendedKey`.
Simplifications: arithmetic on machine integers and copies of arrays take the same time whatever the values; SHA-256 shows the
length of its input only; comparing the check sum shows whether it is right; bounds checks that cannot fail are left out; what
`str::from_utf8` and `write_str` show is left out (the text is ASCII and they read every byte of it); checking the prefix shows
whether it is right.
-/
namespace Kms

namespace Base58

/-- `Base58.mulAdd` from digit `i` on: the loop condition, and the digit read and written.
Used in src/bip32/extended_key/mod.rs:52 and src/bip32/prefix.rs:95 (encoding), src/bip32/extended_key/mod.rs:73 (decoding). -/
def mulAddSeen (mul base : Nat) : Nat → List Nat → Nat → (List Nat × Nat) × List Ev
  | _, [], carry => (([], carry), [.branch false])
  | i, d :: ds, carry =>
    let c := carry + d * mul
    let r := mulAddSeen mul base (i + 1) ds (c / base)
    ((c % base :: r.1.1, r.1.2), [.branch true, .load "output" i, .store "output" i] ++ r.2)

/-- `Base58.pushCarry`: the loop condition, whether the buffer is full, and the digit written.
Used in src/bip32/extended_key/mod.rs:52 and src/bip32/prefix.rs:95 (encoding), src/bip32/extended_key/mod.rs:73 (decoding). -/
def pushCarrySeen (base cap : Nat) : Nat → List Nat → Nat → (List Nat × Bool) × List Ev
  | 0, ds, carry => ((ds, carry == 0), [.branch (carry > 0)])
  | fuel + 1, ds, carry =>
    if carry > 0 then
      if ds.length = cap then ((ds, false), [.branch true, .branch true])
      else
        let r := pushCarrySeen base cap fuel (ds ++ [carry % base]) (carry / base)
        (r.1, [.branch true, .branch false, .store "output" ds.length] ++ r.2)
    else ((ds, true), [.branch false])

/-- `Base58.step`.
Used in src/bip32/extended_key/mod.rs:52 and src/bip32/prefix.rs:95 (encoding), src/bip32/extended_key/mod.rs:73 (decoding). -/
def stepSeen (mul base cap : Nat) (ds : List Nat) (v : Nat) : (List Nat × Bool) × List Ev :=
  let r := mulAddSeen mul base 0 ds v
  let q := pushCarrySeen base cap r.1.2 r.1.1 r.1.2
  (q.1, r.2 ++ q.2)

/-- `Base58.pushZeros` with `take_while` over the input, from symbol `i` on: each symbol read and whether it is the zero symbol,
whether the buffer is full, and the digit written.
Used in src/bip32/extended_key/mod.rs:52 and src/bip32/prefix.rs:95 (encoding), src/bip32/extended_key/mod.rs:73 (decoding). -/
def pushZerosSeen {α : Type} (isZero : α → Bool) (cap : Nat) : Nat → List α → List Nat → (List Nat × Bool) × List Ev
  | _, [], ds => ((ds, true), [.branch false])
  | i, v :: rest, ds =>
    if isZero v then
      if ds.length = cap then ((ds, false), [.branch true, .load "input" i, .branch true, .branch true])
      else
        let r := pushZerosSeen isZero cap (i + 1) rest (ds ++ [0])
        (r.1, [.branch true, .load "input" i, .branch true, .branch false, .store "output" ds.length] ++ r.2)
    else ((ds, true), [.branch true, .load "input" i, .branch false])

/-- `Base58.encodeLoop` from byte `i` of the input on.  Used in src/bip32/extended_key/mod.rs:52. -/
def encodeLoopSeen (cap : Nat) : Nat → Bytes → List Nat → (List Nat × Bool) × List Ev
  | _, [], ds => ((ds, true), [.branch false])
  | i, v :: rest, ds =>
    let s := stepSeen 256 58 cap ds v.toNat
    match s.1 with
    | (ds', true) =>
      let r := encodeLoopSeen cap (i + 1) rest ds'
      (r.1, [.branch true, .load "input" i] ++ s.2 ++ r.2)
    | (ds', false) => ((ds', false), [.branch true, .load "input" i] ++ s.2)

/-- The loop `for val in &mut output[..index] { *val = alpha.encode[*val as usize] }` from digit `i` on.
Used in src/bip32/extended_key/mod.rs:52. -/
def alphabetSeen : Nat → List Nat → List Ev
  | _, [] => [.branch false]
  | i, d :: ds => [.branch true, .load "output" i, .load "alphabet" d, .store "output" i] ++ alphabetSeen (i + 1) ds

/-- `output[..n].reverse()`: the pairs that are swapped.
Used in src/bip32/extended_key/mod.rs:52 and src/bip32/prefix.rs:95 (encoding), src/bip32/extended_key/mod.rs:73 (decoding). -/
def reverseSeen (n : Nat) : List Ev :=
  (List.range (n / 2)).flatMap fun i =>
    [.load "output" i, .load "output" (n - 1 - i), .store "output" i, .store "output" (n - 1 - i)]

/-- `Base58.encodeInto`.  Used in src/bip32/extended_key/mod.rs:52. -/
def encodeIntoSeen (cap : Nat) (input : Bytes) : Res EncodeError Str × List Ev :=
  let l := encodeLoopSeen cap 0 input []
  match l.1 with
  | (_, false) => (.err .bufferTooSmall, l.2)
  | (ds, true) =>
    let z := pushZerosSeen (· = 0) cap 0 input ds
    match z.1 with
    | (_, false) => (.err .bufferTooSmall, l.2 ++ z.2)
    | (ds, true) =>
      (.ok ((ds.map (fun d => alphabet.getD d '1')).reverse), l.2 ++ z.2 ++ alphabetSeen 0 ds ++ reverseSeen ds.length)

/-- `Base58.encodeCheck`.  Used in src/bip32/extended_key/mod.rs:52. -/
def encodeCheckSeen (H : Hashes) (cap : Nat) (input : Bytes) : Res EncodeError Str × List Ev :=
  let r := encodeIntoSeen cap (input ++ checksum H input)
  (r.1, [.hash input.length, .hash 32] ++ r.2)

/-- `Base58.decodeLoop` from byte `i` of the text on: the character read, whether it is ASCII, its entry in the table
`alpha.decode`, and whether that is a digit.  Used in src/bip32/extended_key/mod.rs:73. -/
def decodeLoopSeen (cap : Nat) : Nat → Str → List Nat → (List Nat × Option DecodeError) × List Ev
  | _, [], ds => ((ds, none), [.branch false])
  | i, c :: rest, ds =>
    if c.toNat > 127 then ((ds, some .nonAsciiCharacter), [.branch true, .load "input" i, .branch true])
    else match charVal c with
      | none =>
        ((ds, some .invalidCharacter), [.branch true, .load "input" i, .branch false, .load "decode" c.toNat, .branch true])
      | some v =>
        let s := stepSeen 58 256 cap ds v
        let head := [.branch true, .load "input" i, .branch false, .load "decode" c.toNat, .branch false]
        match s.1 with
        | (ds', true) =>
          let r := decodeLoopSeen cap (i + 1) rest ds'
          (r.1, head ++ s.2 ++ r.2)
        | (ds', false) => ((ds', some .bufferTooSmall), head ++ s.2)

/-- `Base58.decodeInto`.  Used in src/bip32/extended_key/mod.rs:73. -/
def decodeIntoSeen (cap : Nat) (input : Str) : (Bytes × Res DecodeError Nat) × List Ev :=
  let l := decodeLoopSeen cap 0 input []
  match l.1 with
  | (ds, some e) => ((buffer cap ds, .err e), l.2)
  | (ds, none) =>
    let z := pushZerosSeen (· = '1') cap 0 input ds
    match z.1 with
    | (ds, false) => ((buffer cap ds, .err .bufferTooSmall), l.2 ++ z.2)
    | (ds, true) => ((buffer cap ds.reverse, .ok ds.length), l.2 ++ z.2 ++ reverseSeen ds.length)

/-- `Base58.decodeCheck`.  Used in src/bip32/extended_key/mod.rs:73. -/
def decodeCheckSeen (H : Hashes) (cap : Nat) (input : Str) : (Bytes × Res DecodeError Nat) × List Ev :=
  let d := decodeIntoSeen cap input
  match d.1 with
  | (buf, .ok len) =>
    if len < 4 then ((buf, .err .noChecksum), d.2 ++ [.branch true])
    else if checksum H (buf.take (len - 4)) ≠ (buf.take len).drop (len - 4) then
      ((buf, .err .invalidChecksum), d.2 ++ [.branch false, .hash (len - 4), .hash 32, .branch true])
    else ((buf, .ok (len - 4)), d.2 ++ [.branch false, .hash (len - 4), .hash 32, .branch false])
  | (buf, r) => ((buf, r), d.2)

end Base58

namespace Bip32.ExtendedKey

/-- `n` bytes of the local array are overwritten.  Used in src/bip32/extended_key/mod.rs:53, 90. -/
def wipeSeen (n : Nat) : List Ev := (List.range n).map fun i => .store "bytes" i

/-- src/bip32/extended_key/mod.rs:43-66 `write_base58` and `Display`. -/
def toStringSeen (H : Hashes) (k : ExtendedKey) : Seen Error Str :=
  let r := Base58.encodeCheckSeen H MAX_BASE58_SIZE k.serialize
  match r.1 with
  | .ok text => ⟨.ok text, r.2 ++ [.branch true] ++ wipeSeen k.serialize.length⟩
  | _ => ⟨.panic, r.2 ++ [.branch false]⟩

/-- src/bip32/extended_key/mod.rs:71-104 `from_str` -/
def fromStrSeen (H : Hashes) (base58 : Str) : Seen Error ExtendedKey :=
  let d := Base58.decodeCheckSeen H (BYTE_SIZE + 4) base58
  match d.1 with
  | (_, .err _) => ⟨.err .base58, d.2 ++ [.branch false]⟩
  | (_, .panic) => ⟨.panic, d.2⟩
  | (buf, .ok decodedLen) =>
    if decodedLen ≠ BYTE_SIZE then ⟨.err .decode, d.2 ++ [.branch true, .branch true]⟩
    else match parsePrefix base58 buf with
      | .err e => ⟨.err e, d.2 ++ [.branch true, .branch false, .branch false]⟩
      | .panic => ⟨.panic, d.2 ++ [.branch true, .branch false]⟩
      | .ok pfx =>
        match buf[4]?, tryIntoArr 4 Error.decode ((buf.drop 5).take 4), tryIntoArr 4 Error.decode ((buf.drop 9).take 4),
            tryIntoArr 32 Error.decode ((buf.drop 13).take 32), tryIntoArr 33 Error.decode ((buf.drop 45).take 33) with
        | some depth, .ok parentFingerprint, .ok child, .ok chainCode, .ok keyBytes =>
          ⟨.ok ⟨pfx, ⟨depth, parentFingerprint, ChildNumber.fromBytes child, chainCode⟩, keyBytes⟩,
            d.2 ++ [.branch true, .branch false, .branch true] ++ wipeSeen buf.length⟩
        | _, _, _, _, _ => ⟨.panic, d.2⟩   -- unreachable: the ranges have the right lengths

end Bip32.ExtendedKey
end Kms
