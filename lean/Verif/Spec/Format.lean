import Verif.Model.DebugFormat
/-
What it means for a `fmt` method to write a text, independent of how the method is written.
-/
namespace Kms.Spec

/-- One call of the writer. -/
inductive Piece where
  | str (s : Str)
  | chr (c : Char)

/-- The text of a call. -/
def Piece.text : Piece → Str
  | .str s => s
  | .chr c => [c]

/-- Making a call. -/
def Piece.give {W : Type} (wr : Writer W) (w : W) : Piece → W × Bool
  | .str s => wr.writeStr w s
  | .chr c => wr.writeChar w c

/-- Making calls one after the other, up to and including the first that fails: the writer afterwards, and whether all
succeeded. -/
def feed {W : Type} (wr : Writer W) (w : W) : List Piece → W × Bool
  | [] => (w, true)
  | p :: ps =>
    match p.give wr w with
    | (w', true) => feed wr w' ps
    | (w', false) => (w', false)

/-- The `fmt::Result` of a success or failure. -/
def result : Bool → Res Unit Unit
  | true => .ok ()
  | false => .err ()

/-- The method writes the text: it makes calls whose texts concatenate to it, the same ones for every writer, stops at
the first that fails and then returns `Err`; it returns `Ok` if none fails. -/
def Writes (f : Fmt) (text : Str) : Prop :=
  ∃ ps : List Piece, ps.flatMap Piece.text = text ∧
    ∀ (W : Type) (wr : Writer W) (w : W), f.run wr w = ((feed wr w ps).1, result (feed wr w ps).2)

/-- A text under a format specification: cut to the precision, then filled up to the width, on the right unless another
alignment is given. -/
def justify (spec : FmtSpec) (s : Str) : Str :=
  let t := match spec.precision with
    | some max => s.take max
    | none => s
  let n := spec.width.getD 0 - t.length
  match spec.align with
  | some .right => List.replicate n spec.fill ++ t
  | some .center => List.replicate (n / 2) spec.fill ++ t ++ List.replicate (n - n / 2) spec.fill
  | _ => t ++ List.replicate n spec.fill

/-- Digits after a head (sign and `0x`), filled up to the width: with zeros after the head for the `0` flag, otherwise with
the fill character, on the left unless another alignment is given. -/
def numberText (spec : FmtSpec) (head digits : Str) : Str :=
  let missing := spec.width.getD 0 - (head ++ digits).length
  if spec.zeroPad then head ++ List.replicate missing '0' ++ digits
  else match spec.align with
    | some .left => head ++ digits ++ List.replicate missing spec.fill
    | some .center =>
      List.replicate (missing / 2) spec.fill ++ head ++ digits ++ List.replicate (missing - missing / 2) spec.fill
    | _ => List.replicate missing spec.fill ++ head ++ digits

/-- A number under a format specification of `Debug`: decimal, or hexadecimal for `x?` and `X?`, with a sign if asked for
and `0x` before a hexadecimal number with `#`. -/
def number (spec : FmtSpec) (n : Nat) : Str :=
  let sign := if spec.signPlus then ['+'] else []
  let mark := if spec.alternate then ['0', 'x'] else []
  match spec.debugHex with
  | none => numberText spec sign (decimal n)
  | some false => numberText spec (sign ++ mark) (Nat.toDigits 16 n)
  | some true => numberText spec (sign ++ mark) ((Nat.toDigits 16 n).map Char.toUpper)

/-- `Debug` of a child number, with numbers written by `num`. -/
def childText (num : Nat → Str) (pretty : Bool) (c : Bip32.ChildNumber) : Str :=
  debugTuple1 pretty "ChildNumber".toList (num c.n.toNat)

/-- `Debug` of attributes, with numbers written by `num`. -/
def attrsText (num : Nat → Str) (pretty : Bool) (a : Bip32.ExtendedKeyAttrs) : Str :=
  debugStruct pretty "ExtendedKeyAttrs".toList
    [("depth".toList, num a.depth.toNat),
     ("parent_fingerprint".toList, debugList pretty (a.parentFingerprint.1.map (fun b => num b.toNat))),
     ("child_number".toList, childText num pretty a.childNumber),
     ("chain_code".toList, debugList pretty (a.chainCode.1.map (fun b => num b.toNat)))]

/-- `Debug` of an extended private key, with numbers written by `num`. -/
def keyText (num : Nat → Str) (pretty : Bool) (a : Bip32.ExtendedKeyAttrs) : Str :=
  debugStruct pretty "ExtendedPrivateKey".toList
    [("private_key".toList, "\"...\"".toList), ("attrs".toList, attrsText num pretty a)]

/-- `Debug` of a path, with numbers written by `num`. -/
def pathText (num : Nat → Str) (pretty : Bool) (p : List Bip32.ChildNumber) : Str :=
  debugStruct pretty "DerivationPath".toList [("path".toList, debugList pretty (p.map (childText num pretty)))]

/-- A writer that keeps what it is given: a successful call appends its text, a failing one a part of it. -/
structure Keeps {W : Type} (wr : Writer W) (view : W → Str) : Prop where
  str : ∀ w s, ∃ t, view (wr.writeStr w s).1 = view w ++ t ∧ t <+: s ∧ ((wr.writeStr w s).2 = true → t = s)
  chr : ∀ w c, ∃ t, view (wr.writeChar w c).1 = view w ++ t ∧ t <+: [c] ∧ ((wr.writeChar w c).2 = true → t = [c])

end Kms.Spec
