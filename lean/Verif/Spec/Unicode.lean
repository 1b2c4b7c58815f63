import Verif.Spec.Nfkd
import Mathlib.Data.List.Forall2
import Verif.Data.Decompositions
import Verif.Data.CombiningClasses
import Verif.Data.Gb18030
/-
White space, normalization form KD and encodings, from the tables of the Unicode Standard and of GB18030, independent
of the model.
-/
namespace Kms.Spec

/-- The characters with the Unicode property `White_Space` (PropList.txt). -/
def whiteSpace : List Nat :=
  [0x9, 0xA, 0xB, 0xC, 0xD, 0x20, 0x85, 0xA0, 0x1680, 0x2000, 0x2001, 0x2002, 0x2003, 0x2004, 0x2005, 0x2006, 0x2007, 0x2008,
   0x2009, 0x200A, 0x2028, 0x2029, 0x202F, 0x205F, 0x3000]

def isWhite (c : Char) : Bool := whiteSpace.contains c.toNat

/-- `s` is made of the pieces `ws`, in order, with any non-empty run of `blank` characters between them and any such run, or
none, before and after; the pieces are not empty and hold no such characters. -/
inductive SpellsWith (blank : Char → Bool) : List Char → List (List Char) → Prop
  | blank (lead : List Char) : (∀ c ∈ lead, blank c = true) → SpellsWith blank lead []
  | last (lead w trail : List Char) : (∀ c ∈ lead, blank c = true) → w ≠ [] → (∀ c ∈ w, blank c = false) →
      (∀ c ∈ trail, blank c = true) → SpellsWith blank (lead ++ w ++ trail) [w]
  | cons (lead w : List Char) (c : Char) (rest : List Char) (ws : List (List Char)) : (∀ c ∈ lead, blank c = true) → w ≠ [] →
      (∀ c ∈ w, blank c = false) → blank c = true → SpellsWith blank rest ws →
      SpellsWith blank (lead ++ w ++ c :: rest) (w :: ws)

/-- `s` is made of the pieces `ws` with white space between and around them. -/
def Spells : List Char → List (List Char) → Prop := SpellsWith isWhite

namespace Nfkd

/-- Canonical combining class: the table's, 0 for characters not listed (UnicodeData.txt). -/
def ccc (c : Char) : Nat := (Data.combiningClasses.lookup c.toNat).getD 0

/-- The full compatibility decomposition of a character: by arithmetic for a Hangul syllable, the table's if it is listed,
itself otherwise. -/
inductive Decomposes : Char → List Char → Prop
  | hangul (l v t : Nat) : l < 19 → v < 21 → t < 28 → Decomposes (syllable l v t) (jamo l v t)
  | listed (c : Char) (ds : List Nat) : Data.decompositions.lookup c.toNat = some ds → Decomposes c (ds.map Char.ofNat)
  | itself (c : Char) : (∀ l v t, l < 19 → v < 21 → t < 28 → c ≠ syllable l v t) →
      Data.decompositions.lookup c.toNat = none → Decomposes c [c]

end Nfkd

/-- `t` is the normalization form KD of `s`: decompose every character, put the marks in order. -/
def IsNfkd (s t : List Char) : Prop :=
  ∃ parts, List.Forall₂ Nfkd.Decomposes s parts ∧ Nfkd.Ordered Nfkd.ccc parts.flatten t

/-- UTF-8 (Lean's own encoder). -/
def utf8Of (s : List Char) : List UInt8 := s.flatMap String.utf8EncodeChar

/-- `b` is the GB18030 encoding of `s`, for texts of spaces and characters in the table of two-byte codes. -/
inductive IsGb : List Char → List UInt8 → Prop
  | nil : IsGb [] []
  | space (s b) : IsGb s b → IsGb (' ' :: s) (0x20 :: b)
  | han (c : Char) (hi lo : UInt8) (s b) : (c.toNat, hi.toNat * 256 + lo.toNat) ∈ Data.gb18030 → IsGb s b →
      IsGb (c :: s) (hi :: lo :: b)

end Kms.Spec
