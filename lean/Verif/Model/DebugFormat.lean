import Verif.Model.Format
import Verif.Model.Debug
/-
The `Debug` methods with any format specification and any writer.  `Verif.Model.Debug` has the text for `{:?}` and `{:#?}`.
Taken from core::fmt: the builders `DebugStruct`, `DebugTuple` and `DebugList` with their `PadAdapter`, and `Debug` of
integers and strings.
-/
namespace Kms

/-- `str::split_inclusive('\n')`.
Used in src/bip32/prefix.rs:156-159, src/bip32/extended_key/extended_private_key.rs:208-211 and the derived `Debug`s of
src/bip32/child_number.rs:10, src/bip32/extended_key/attrs.rs:7, src/bip32/derivation_path.rs:15. -/
def splitInclusive : Str → List Str
  | [] => []
  | c :: cs =>
    if c = '\n' then [c] :: splitInclusive cs
    else match splitInclusive cs with
      | [] => [[c]]
      | l :: ls => (c :: l) :: ls

namespace Fmt

/-- `PadAdapter::write_str` on one line: the indentation at the start of a line, then the line.  The flag says whether the
next character starts a line.
Used in src/bip32/prefix.rs:156-159, src/bip32/extended_key/extended_private_key.rs:208-211 and the derived `Debug`s of
src/bip32/child_number.rs:10, src/bip32/extended_key/attrs.rs:7, src/bip32/derivation_path.rs:15. -/
def padLine {W : Type} (wr : Writer W) (st : W × Bool) (line : Str) : (W × Bool) × Bool :=
  match (if st.2 then wr.writeStr st.1 "    ".toList else (st.1, true)) with
  | (w, false) => ((w, st.2), false)
  | (w, true) =>
    match wr.writeStr w line with
    | (w', true) => ((w', line.getLast? == some '\n'), true)
    | (w', false) => ((w', line.getLast? == some '\n'), false)

/-- `PadAdapter::write_str`: the loop over the lines.
Used in src/bip32/prefix.rs:156-159, src/bip32/extended_key/extended_private_key.rs:208-211 and the derived `Debug`s of
src/bip32/child_number.rs:10, src/bip32/extended_key/attrs.rs:7, src/bip32/derivation_path.rs:15. -/
def padStr {W : Type} (wr : Writer W) (st : W × Bool) : List Str → (W × Bool) × Bool
  | [] => (st, true)
  | l :: ls =>
    match padLine wr st l with
    | (st', true) => padStr wr st' ls
    | (st', false) => (st', false)

/-- `PadAdapter`.
Used in src/bip32/prefix.rs:156-159, src/bip32/extended_key/extended_private_key.rs:208-211 and the derived `Debug`s of
src/bip32/child_number.rs:10, src/bip32/extended_key/attrs.rs:7, src/bip32/derivation_path.rs:15. -/
def padAdapter {W : Type} (wr : Writer W) : Writer (W × Bool) where
  writeStr st s := padStr wr st (splitInclusive s)
  writeChar st c :=
    match (if st.2 then wr.writeStr st.1 "    ".toList else (st.1, true)) with
    | (w, false) => ((w, st.2), false)
    | (w, true) =>
      match wr.writeChar w c with
      | (w', true) => ((w', c == '\n'), true)
      | (w', false) => ((w', c == '\n'), false)

/-- Formatting through a new `PadAdapter`.
Used in src/bip32/prefix.rs:156-159, src/bip32/extended_key/extended_private_key.rs:208-211 and the derived `Debug`s of
src/bip32/child_number.rs:10, src/bip32/extended_key/attrs.rs:7, src/bip32/derivation_path.rs:15. -/
def indented (f : Fmt) : Fmt := ⟨fun wr w =>
  match f.run (padAdapter wr) (w, true) with
  | ((w', _), r) => (w', r)⟩

/-- `DebugStruct::field` for each field; `first` is `!has_fields`.
Used in src/bip32/prefix.rs:156-159, src/bip32/extended_key/extended_private_key.rs:208-211 and the derived `Debug`s of
src/bip32/child_number.rs:10, src/bip32/extended_key/attrs.rs:7, src/bip32/derivation_path.rs:15. -/
def fields (spec : FmtSpec) (first : Bool) : List (Str × Fmt) → Fmt
  | [] => done
  | (name, value) :: rest =>
    next
      (if spec.alternate then
        next (if first then str " {\n".toList else done)
          (indented (next (str name) (next (str ": ".toList) (next value (str ",\n".toList)))))
      else
        next (str (if first then " { ".toList else ", ".toList)) (next (str name) (next (str ": ".toList) value)))
      (fields spec false rest)

/-- `Formatter::debug_struct`, `field` for at least one field, `finish`.
Used in src/bip32/prefix.rs:156-159, src/bip32/extended_key/extended_private_key.rs:208-211 and the derived `Debug`s of
src/bip32/child_number.rs:10, src/bip32/extended_key/attrs.rs:7, src/bip32/derivation_path.rs:15. -/
def dStruct (spec : FmtSpec) (name : Str) (fs : List (Str × Fmt)) : Fmt :=
  next (str name) (next (fields spec true fs) (if spec.alternate then str ['}'] else str " }".toList))

/-- `Formatter::debug_tuple`, one `field`, `finish`.
Used in src/bip32/prefix.rs:156-159, src/bip32/extended_key/extended_private_key.rs:208-211 and the derived `Debug`s of
src/bip32/child_number.rs:10, src/bip32/extended_key/attrs.rs:7, src/bip32/derivation_path.rs:15. -/
def dTuple1 (spec : FmtSpec) (name : Str) (value : Fmt) : Fmt :=
  next (str name) (next
    (if spec.alternate then next (str "(\n".toList) (indented (next value (str ",\n".toList)))
     else next (str ['(']) value)
    (str [')']))

/-- `DebugInner::entry` for each entry.
Used in src/bip32/prefix.rs:156-159, src/bip32/extended_key/extended_private_key.rs:208-211 and the derived `Debug`s of
src/bip32/child_number.rs:10, src/bip32/extended_key/attrs.rs:7, src/bip32/derivation_path.rs:15. -/
def entries (spec : FmtSpec) (first : Bool) : List Fmt → Fmt
  | [] => done
  | e :: rest =>
    next
      (if spec.alternate then
        next (if first then str ['\n'] else done) (indented (next e (str ",\n".toList)))
      else next (if first then done else str ", ".toList) e)
      (entries spec false rest)

/-- `Formatter::debug_list`, `entries`, `finish`.
Used in src/bip32/prefix.rs:156-159, src/bip32/extended_key/extended_private_key.rs:208-211 and the derived `Debug`s of
src/bip32/child_number.rs:10, src/bip32/extended_key/attrs.rs:7, src/bip32/derivation_path.rs:15. -/
def dList (spec : FmtSpec) (es : List Fmt) : Fmt := next (str ['[']) (next (entries spec true es) (str [']']))

/-- `Debug` of an unsigned integer.
Used in src/bip32/prefix.rs:156-159, src/bip32/extended_key/extended_private_key.rs:208-211 and the derived `Debug`s of
src/bip32/child_number.rs:10, src/bip32/extended_key/attrs.rs:7, src/bip32/derivation_path.rs:15. -/
def dInt (spec : FmtSpec) (n : Nat) : Fmt :=
  match spec.debugHex with
  | some false => padIntegral spec ['0', 'x'] (Nat.toDigits 16 n)
  | some true => padIntegral spec ['0', 'x'] ((Nat.toDigits 16 n).map Char.toUpper)
  | none => decimal spec n

/-- `Debug` of a string in which no character needs an escape.
Used in src/bip32/prefix.rs:156-159, src/bip32/extended_key/extended_private_key.rs:208-211 and the derived `Debug`s of
src/bip32/child_number.rs:10, src/bip32/extended_key/attrs.rs:7, src/bip32/derivation_path.rs:15. -/
def dStr (s : Str) : Fmt := next (chr '"') (next (str s) (chr '"'))

end Fmt

namespace Bip32
open Fmt

/-- src/bip32/child_number.rs:10 `derive(Debug)` -/
def ChildNumber.debugFmt (c : ChildNumber) (spec : FmtSpec) : Fmt := dTuple1 spec "ChildNumber".toList (dInt spec c.n.toNat)

/-- src/bip32/extended_key/attrs.rs:7 `derive(Debug)` -/
def ExtendedKeyAttrs.debugFmt (a : ExtendedKeyAttrs) (spec : FmtSpec) : Fmt :=
  dStruct spec "ExtendedKeyAttrs".toList
    [("depth".toList, dInt spec a.depth.toNat),
     ("parent_fingerprint".toList, dList spec (a.parentFingerprint.1.map (fun b => dInt spec b.toNat))),
     ("child_number".toList, a.childNumber.debugFmt spec),
     ("chain_code".toList, dList spec (a.chainCode.1.map (fun b => dInt spec b.toNat)))]

/-- src/bip32/extended_key/extended_private_key.rs:202-213 `Debug` -/
def XPrv.debugFmt (k : XPrv) (spec : FmtSpec) : Fmt :=
  dStruct spec "ExtendedPrivateKey".toList [("private_key".toList, dStr "...".toList), ("attrs".toList, k.attrs.debugFmt spec)]

/-- src/bip32/derivation_path.rs:15 `derive(Debug)` -/
def DerivationPath.debugFmt (p : DerivationPath) (spec : FmtSpec) : Fmt :=
  dStruct spec "DerivationPath".toList [("path".toList, dList spec (p.path.map (·.debugFmt spec)))]

/-- src/bip32/prefix.rs:199-205 `DebugVersion`: `write!(f, "{:#010x}", self.0)` -/
def versionFmt (v : BitVec 32) : Fmt :=
  padIntegral { alternate := true, zeroPad := true, width := some 10 } ['0', 'x'] (Nat.toDigits 16 v.toNat)

/-- src/bip32/prefix.rs:154-161 `Debug`; the name is written before `as_str` is called, which may panic. -/
def Prefix.debugFmt (p : Prefix) (spec : FmtSpec) : Fmt :=
  match p.asStr with
  | .ok s => dStruct spec "Prefix".toList [("chars".toList, dStr s), ("version".toList, versionFmt p.version)]
  | _ => ⟨fun wr w => ((wr.writeStr w "Prefix".toList).1, .panic)⟩

end Bip32

/-- src/bip39/mnemonic.rs:288-292 `Debug` -/
def Bip39.Mnemonic.debugFmt (m : Bip39.Mnemonic) (_ : FmtSpec) : Fmt := Fmt.dStr m.phrase

end Kms
