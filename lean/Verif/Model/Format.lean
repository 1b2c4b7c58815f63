import Verif.Model.Keys
import Verif.Model.Mnemonic
import Verif.Model.ErrorText
/-
The `fmt` methods with any format specification and any `fmt::Write` behind the formatter: what is written, in which
pieces, and what happens when the writer fails.  The other models of `Display`, `LowerHex` and `UpperHex` have only the
text for the plain specification.
Taken from core::fmt: `Formatter::pad`, `Formatter::pad_integral`, `Formatter::padding` and `fmt::write`.
-/
namespace Kms

/-- The alignment of a format specification.
Used in the `fmt` methods of src/bip32/child_number.rs:55-65, src/bip32/derivation_path.rs:59-69, src/bip32/prefix.rs:163-167,
src/bip32/error.rs:36-48, src/bip39/seed.rs:52-84. -/
inductive Align where
  | left | center | right
  deriving DecidableEq

/-- A format specification: `{:fill align sign # 0 width .precision}`; `debugHex` is `some false` for `x?` and `some true` for
`X?`.
Used in the `fmt` methods of src/bip32/child_number.rs:55-65, src/bip32/derivation_path.rs:59-69, src/bip32/prefix.rs:163-167,
src/bip32/error.rs:36-48, src/bip39/seed.rs:52-84. -/
structure FmtSpec where
  fill : Char := ' '
  align : Option Align := none
  signPlus : Bool := false
  alternate : Bool := false
  zeroPad : Bool := false
  width : Option Nat := none
  precision : Option Nat := none
  debugHex : Option Bool := none
  deriving DecidableEq

/-- `core::fmt::Write`: the state of the writer after a call and whether the call returned `Ok`.
Used in the `fmt` methods of src/bip32/child_number.rs:55-65, src/bip32/derivation_path.rs:59-69, src/bip32/prefix.rs:163-167,
src/bip32/error.rs:36-48, src/bip39/seed.rs:52-84. -/
structure Writer (W : Type) where
  writeStr : W → Str → W × Bool
  writeChar : W → Char → W × Bool

/-- A call of `fmt`: the state of the writer afterwards and the `fmt::Result`, or a panic.
Used in the `fmt` methods of src/bip32/child_number.rs:55-65, src/bip32/derivation_path.rs:59-69, src/bip32/prefix.rs:163-167,
src/bip32/error.rs:36-48, src/bip39/seed.rs:52-84. -/
structure Fmt : Type 1 where
  run : {W : Type} → Writer W → W → W × Res Unit Unit

namespace Fmt

/-- `Ok(())`.
Used in the `fmt` methods of src/bip32/child_number.rs:55-65, src/bip32/derivation_path.rs:59-69, src/bip32/prefix.rs:163-167,
src/bip32/error.rs:36-48, src/bip39/seed.rs:52-84. -/
def done : Fmt := ⟨fun _ w => (w, .ok ())⟩

/-- `Err(fmt::Error)`.
Used in the `fmt` methods of src/bip32/child_number.rs:55-65, src/bip32/derivation_path.rs:59-69, src/bip32/prefix.rs:163-167,
src/bip32/error.rs:36-48, src/bip39/seed.rs:52-84. -/
def fail : Fmt := ⟨fun _ w => (w, .err ())⟩

/-- a panic before anything is written.
Used in the `fmt` methods of src/bip32/child_number.rs:55-65, src/bip32/derivation_path.rs:59-69, src/bip32/prefix.rs:163-167,
src/bip32/error.rs:36-48, src/bip39/seed.rs:52-84. -/
def panics : Fmt := ⟨fun _ w => (w, .panic)⟩

/-- `Formatter::write_str`.
Used in the `fmt` methods of src/bip32/child_number.rs:55-65, src/bip32/derivation_path.rs:59-69, src/bip32/prefix.rs:163-167,
src/bip32/error.rs:36-48, src/bip39/seed.rs:52-84. -/
def str (s : Str) : Fmt := ⟨fun wr w =>
  match wr.writeStr w s with
  | (w', true) => (w', .ok ())
  | (w', false) => (w', .err ())⟩

/-- `Formatter::write_char`.
Used in the `fmt` methods of src/bip32/child_number.rs:55-65, src/bip32/derivation_path.rs:59-69, src/bip32/prefix.rs:163-167,
src/bip32/error.rs:36-48, src/bip39/seed.rs:52-84. -/
def chr (c : Char) : Fmt := ⟨fun wr w =>
  match wr.writeChar w c with
  | (w', true) => (w', .ok ())
  | (w', false) => (w', .err ())⟩

/-- `a?; b`.
Used in the `fmt` methods of src/bip32/child_number.rs:55-65, src/bip32/derivation_path.rs:59-69, src/bip32/prefix.rs:163-167,
src/bip32/error.rs:36-48, src/bip39/seed.rs:52-84. -/
def next (a b : Fmt) : Fmt := ⟨fun wr w =>
  match a.run wr w with
  | (w', .ok ()) => b.run wr w'
  | (w', .err ()) => (w', .err ())
  | (w', .panic) => (w', .panic)⟩

/-- `for x in xs { f(x)?; }`.
Used in the `fmt` methods of src/bip32/child_number.rs:55-65, src/bip32/derivation_path.rs:59-69, src/bip32/prefix.rs:163-167,
src/bip32/error.rs:36-48, src/bip39/seed.rs:52-84. -/
def each {α : Type} (f : α → Fmt) : List α → Fmt
  | [] => done
  | x :: xs => next (f x) (each f xs)

/-- The two counts of `Formatter::padding`.
Used in the `fmt` methods of src/bip32/child_number.rs:55-65, src/bip32/derivation_path.rs:59-69, src/bip32/prefix.rs:163-167,
src/bip32/error.rs:36-48, src/bip39/seed.rs:52-84. -/
def padCounts (spec : FmtSpec) (padding : Nat) (dflt : Align) : Nat × Nat :=
  match spec.align.getD dflt with
  | .left => (0, padding)
  | .right => (padding, 0)
  | .center => (padding / 2, (padding + 1) / 2)

/-- `Formatter::padding`, the text and `PostPadding::write`.
Used in the `fmt` methods of src/bip32/child_number.rs:55-65, src/bip32/derivation_path.rs:59-69, src/bip32/prefix.rs:163-167,
src/bip32/error.rs:36-48, src/bip39/seed.rs:52-84. -/
def padded (spec : FmtSpec) (padding : Nat) (dflt : Align) (body : Fmt) : Fmt :=
  let n := padCounts spec padding dflt
  next (each chr (List.replicate n.1 spec.fill)) (next body (each chr (List.replicate n.2 spec.fill)))

/-- `Formatter::pad`, which is `Display` of `str`.
Used in the `fmt` methods of src/bip32/child_number.rs:55-65, src/bip32/derivation_path.rs:59-69, src/bip32/prefix.rs:163-167,
src/bip32/error.rs:36-48, src/bip39/seed.rs:52-84. -/
def pad (spec : FmtSpec) (s : Str) : Fmt :=
  match spec.width, spec.precision with
  | none, none => str s
  | width, precision =>
    let s := match precision with
      | some max => s.take max
      | none => s
    match width with
    | none => str s
    | some width => if s.length ≥ width then str s else padded spec (width - s.length) .left (str s)

/-- `Formatter::pad_integral` of a number that is not negative.
Used in the `fmt` methods of src/bip32/child_number.rs:55-65, src/bip32/derivation_path.rs:59-69, src/bip32/prefix.rs:163-167,
src/bip32/error.rs:36-48, src/bip39/seed.rs:52-84. -/
def padIntegral (spec : FmtSpec) (pre digits : Str) : Fmt :=
  let sign : Str := if spec.signPlus then ['+'] else []
  let width := digits.length + sign.length + (if spec.alternate then pre.length else 0)
  let writePrefix := next (each chr sign) (if spec.alternate then str pre else done)
  match spec.width with
  | none => next writePrefix (str digits)
  | some min =>
    if width ≥ min then next writePrefix (str digits)
    else if spec.zeroPad then
      next writePrefix (padded { spec with fill := '0', align := some .right } (min - width) .right (str digits))
    else padded spec (min - width) .right (next writePrefix (str digits))

/-- `Display` of an unsigned integer.
Used in the `fmt` methods of src/bip32/child_number.rs:55-65, src/bip32/derivation_path.rs:59-69, src/bip32/prefix.rs:163-167,
src/bip32/error.rs:36-48, src/bip39/seed.rs:52-84. -/
def decimal (spec : FmtSpec) (n : Nat) : Fmt := padIntegral spec [] (Kms.decimal n)

/-- The digits of `LowerHex` and `UpperHex` of a `u8`: no leading zero.
Used in src/bip39/seed.rs:65, 79 and src/bip39/mnemonic.rs:294-320. -/
def hexDigits (upper : Bool) (b : UInt8) : Str :=
  if b.toNat < 16 then (hexByte upper b).drop 1 else hexByte upper b

/-- `LowerHex` and `UpperHex` of a `u8`.  Used in src/bip39/seed.rs:65, 79 and src/bip39/mnemonic.rs:294-320. -/
def hexU8 (upper : Bool) (spec : FmtSpec) (b : UInt8) : Fmt := padIntegral spec ['0', 'x'] (hexDigits upper b)

/-- `{:02x}` and `{:02X}`.  Used in src/bip39/seed.rs:65, 79 and src/bip39/mnemonic.rs:294-320. -/
def spec02 : FmtSpec := { zeroPad := true, width := some 2 }

end Fmt

namespace Bip32
open Fmt

/-- src/bip32/error.rs:37-49 `Display` -/
def Error.fmt (e : Error) (_ : FmtSpec) : Fmt := str e.display

/-- src/bip32/child_number.rs:55-65 `Display` -/
def ChildNumber.fmt (c : ChildNumber) (_ : FmtSpec) : Fmt :=
  next (Fmt.decimal {} c.index.toNat) (if c.isHardened then str ['\''] else done)

/-- src/bip32/derivation_path.rs:59-69 `Display` -/
def DerivationPath.fmt (p : DerivationPath) (_ : FmtSpec) : Fmt :=
  next (str ['m']) (each (fun c => next (str ['/']) (c.fmt {})) p.path)

/-- src/bip32/prefix.rs:163-167 `Display`; `as_str` may panic. -/
def Prefix.fmt (p : Prefix) (_ : FmtSpec) : Fmt :=
  match p.asStr with
  | .ok s => str s
  | .err _ => fail
  | .panic => panics

/-- src/bip32/extended_key/mod.rs:59-66 `Display` -/
def ExtendedKey.fmt (H : Hashes) (k : ExtendedKey) (_ : FmtSpec) : Fmt :=
  match (k.writeBase58 H).2 with
  | .ok base58 => str base58
  | .err _ => fail
  | .panic => panics

end Bip32

namespace Bip39
open Fmt

/-- src/bip39/mnemonic_type.rs:191-200 `Display` -/
def MnemonicType.fmt (t : MnemonicType) (_ : FmtSpec) : Fmt :=
  next (Fmt.decimal {} t.wordCount)
    (next (str " words (".toList) (next (Fmt.decimal {} t.entropyBits) (str "bits)".toList)))

/-- src/bip39/error.rs:5-16 `Display`, generated by thiserror: `write_str` of a message without fields, else `write!` -/
def ErrorKind.fmt (e : ErrorKind) (_ : FmtSpec) : Fmt :=
  match e with
  | .invalidChecksum => str "invalid checksum".toList
  | .invalidWord => str "invalid word in phrase".toList
  | .invalidKeysize n => next (str "invalid keysize: ".toList) (Fmt.decimal {} n)
  | .invalidWordLength n => next (str "invalid number of words in phrase: ".toList) (Fmt.decimal {} n)
  | .invalidEntropyLength n t =>
    next (str "invalid entropy length ".toList)
      (next (Fmt.decimal {} n) (next (str "bits for mnemonic type ".toList) (str t.debug)))

/-- src/bip39/mnemonic.rs:282-286 `Display` -/
def Mnemonic.fmt (m : Mnemonic) (spec : FmtSpec) : Fmt := pad spec m.phrase

/-- The body shared by the four hexadecimal renderings, src/bip39/mnemonic.rs:294-306, :308-320,
src/bip39/seed.rs:58-70, :72-84 -/
def hexLoop (upper : Bool) (spec : FmtSpec) (bytes : Bytes) : Fmt :=
  next (if spec.alternate then str ['0', 'x'] else done) (each (fun byte => hexU8 upper spec02 byte) bytes)

/-- src/bip39/mnemonic.rs:294-306 `LowerHex` (`upper = false`) and :308-320 `UpperHex` (`upper = true`) -/
def Mnemonic.hexFmt (upper : Bool) (m : Mnemonic) (spec : FmtSpec) : Fmt := hexLoop upper spec m.entropy

/-- src/bip39/seed.rs:58-70 `LowerHex`, :72-84 `UpperHex` -/
def Seed.hexFmt (upper : Bool) (s : Seed) (spec : FmtSpec) : Fmt := hexLoop upper spec s.bytes

/-- src/bip39/seed.rs:52-56 `Debug`: `write!(f, "{:#X}", self)` -/
def Seed.debugFmt (s : Seed) (_ : FmtSpec) : Fmt := s.hexFmt true { alternate := true }

end Bip39

end Kms
