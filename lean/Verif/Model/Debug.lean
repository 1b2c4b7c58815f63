import Verif.Model.Keys
import Verif.Model.Mnemonic
/-
`Debug` renderings.  The helpers are those of core::fmt::builders; `pretty` is the `#` flag of `{:#?}`.  Other format
flags (width, `{:x?}`) are not modelled.
-/
namespace Kms

/-- `PadAdapter` of core::fmt::builders: four spaces before the first character of every line.
Used in src/bip32/prefix.rs:156-159, src/bip32/extended_key/extended_private_key.rs:208-211 and the derived `Debug`s of
src/bip32/child_number.rs:10, src/bip32/extended_key/attrs.rs:7, src/bip32/derivation_path.rs:15. -/
def padLines (onNewline : Bool) : Str → Str
  | [] => []
  | c :: cs => (if onNewline then [' ', ' ', ' ', ' '] else []) ++ c :: padLines (c == '\n') cs

/-- `DebugStruct::field` and `finish` on rendered fields (at least one).
Used in src/bip32/prefix.rs:156-159, src/bip32/extended_key/extended_private_key.rs:208-211 and the derived `Debug`s of
src/bip32/child_number.rs:10, src/bip32/extended_key/attrs.rs:7, src/bip32/derivation_path.rs:15. -/
def debugStruct (pretty : Bool) (name : Str) (fields : List (Str × Str)) : Str :=
  if pretty then
    name ++ " {\n".toList ++ fields.flatMap (fun f => padLines true (f.1 ++ ": ".toList ++ f.2 ++ ",\n".toList)) ++ ['}']
  else name ++ " { ".toList ++ join ", ".toList (fields.map (fun f => f.1 ++ ": ".toList ++ f.2)) ++ " }".toList

/-- `DebugTuple` with one field.
Used in src/bip32/prefix.rs:156-159, src/bip32/extended_key/extended_private_key.rs:208-211 and the derived `Debug`s of
src/bip32/child_number.rs:10, src/bip32/extended_key/attrs.rs:7, src/bip32/derivation_path.rs:15. -/
def debugTuple1 (pretty : Bool) (name value : Str) : Str :=
  if pretty then name ++ "(\n".toList ++ padLines true (value ++ ",\n".toList) ++ [')']
  else name ++ ['('] ++ value ++ [')']

/-- `DebugList`, also `[u8; N]`.
Used in src/bip32/prefix.rs:156-159, src/bip32/extended_key/extended_private_key.rs:208-211 and the derived `Debug`s of
src/bip32/child_number.rs:10, src/bip32/extended_key/attrs.rs:7, src/bip32/derivation_path.rs:15. -/
def debugList (pretty : Bool) (items : List Str) : Str :=
  if pretty then
    if items.isEmpty then "[]".toList
    else "[\n".toList ++ items.flatMap (fun v => padLines true (v ++ ",\n".toList)) ++ [']']
  else ['['] ++ join ", ".toList items ++ [']']

/-- `Debug` of `u8`.
Used in src/bip32/prefix.rs:156-159, src/bip32/extended_key/extended_private_key.rs:208-211 and the derived `Debug`s of
src/bip32/child_number.rs:10, src/bip32/extended_key/attrs.rs:7, src/bip32/derivation_path.rs:15. -/
def debugU8 (b : UInt8) : Str := decimal b.toNat

/-- `Debug` of a string in which no character needs an escape: printable, no quote and no backslash.
Used in src/bip32/prefix.rs:156-159, src/bip32/extended_key/extended_private_key.rs:208-211 and the derived `Debug`s of
src/bip32/child_number.rs:10, src/bip32/extended_key/attrs.rs:7, src/bip32/derivation_path.rs:15. -/
def debugStr (s : Str) : Str := ['"'] ++ s ++ ['"']

/-- src/bip39/mnemonic.rs:288-292 `Debug` of the phrase.  No character of a phrase needs an escape (theorem `C69_text_forms`
lists them). -/
def Bip39.Mnemonic.debug (m : Bip39.Mnemonic) : Str := debugStr m.phrase

namespace Bip32

/-- src/bip32/child_number.rs:10 `derive(Debug)` -/
def ChildNumber.debug (pretty : Bool) (c : ChildNumber) : Str :=
  debugTuple1 pretty "ChildNumber".toList (decimal c.n.toNat)

/-- src/bip32/extended_key/attrs.rs:7 `derive(Debug)` -/
def ExtendedKeyAttrs.debug (pretty : Bool) (a : ExtendedKeyAttrs) : Str :=
  debugStruct pretty "ExtendedKeyAttrs".toList
    [("depth".toList, debugU8 a.depth),
     ("parent_fingerprint".toList, debugList pretty (a.parentFingerprint.1.map debugU8)),
     ("child_number".toList, a.childNumber.debug pretty),
     ("chain_code".toList, debugList pretty (a.chainCode.1.map debugU8))]

/-- src/bip32/extended_key/extended_private_key.rs:202-213 `Debug` -/
def XPrv.debug (pretty : Bool) (k : XPrv) : Str :=
  debugStruct pretty "ExtendedPrivateKey".toList
    [("private_key".toList, debugStr "...".toList), ("attrs".toList, k.attrs.debug pretty)]

/-- src/bip32/derivation_path.rs:15 `derive(Debug)` -/
def DerivationPath.debug (pretty : Bool) (p : DerivationPath) : Str :=
  debugStruct pretty "DerivationPath".toList [("path".toList, debugList pretty (p.path.map (·.debug pretty)))]

/-- src/bip32/prefix.rs:199-205 `DebugVersion`: `{:#010x}` -/
def debugVersion (v : BitVec 32) : Str := ['0', 'x'] ++ hexBytes false (u32ToBE v).1

/-- src/bip32/prefix.rs:154-161 `Debug`; `as_str` may panic. -/
def Prefix.debug (pretty : Bool) (p : Prefix) : Res Error Str := do
  let s ← p.asStr
  .ok (debugStruct pretty "Prefix".toList [("chars".toList, debugStr s), ("version".toList, debugVersion p.version)])

end Bip32

end Kms
