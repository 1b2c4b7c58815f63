import Verif.Model.Text
import Verif.Data.Decompositions
import Verif.Data.CombiningClasses
/-
`UnicodeNormalization::nfkd` of crate unicode-normalization 0.1.21 (Unicode 14.0.0), as called at
src/bip39/mnemonic.rs:146 and src/bip39/seed.rs:34.  The crate's perfect-hash tables are modelled
by association lists with the same contents.
-/
namespace Kms

/-- `is_hangul_syllable`.  Used in src/bip39/mnemonic.rs:146 and src/bip39/seed.rs:34. -/
def isHangulSyllable (c : Char) : Bool := 0xAC00 ≤ c.toNat && c.toNat < 0xAC00 + 11172

/-- `decompose_hangul`: leading consonant, vowel and, unless absent, trailing consonant.
Used in src/bip39/mnemonic.rs:146 and src/bip39/seed.rs:34. -/
def decomposeHangul (c : Char) : Str :=
  let si := c.toNat - 0xAC00
  let l := Char.ofNat (0x1100 + si / 588)
  let v := Char.ofNat (0x1161 + si % 588 / 28)
  if si % 28 = 0 then [l, v] else [l, v, Char.ofNat (0x11A7 + si % 28)]

/-- `decompose_compatible`: ASCII and unlisted characters stand for themselves.
Used in src/bip39/mnemonic.rs:146 and src/bip39/seed.rs:34. -/
def decomposeCompatible (c : Char) : Str :=
  if c.toNat ≤ 0x7F then [c]
  else if isHangulSyllable c then decomposeHangul c
  else match Data.decompositions.lookup c.toNat with
    | some ds => ds.map Char.ofNat
    | none => [c]

/-- `canonical_combining_class`.  Used in src/bip39/mnemonic.rs:146 and src/bip39/seed.rs:34. -/
def combiningClass (c : Char) : Nat := (Data.combiningClasses.lookup c.toNat).getD 0

/-- One step of a stable sort by combining class: put `c` before the first element of class at least
its own.  Used in src/bip39/mnemonic.rs:146 and src/bip39/seed.rs:34. -/
def insertByClass (c : Char) : Str → Str
  | [] => [c]
  | d :: ds => if combiningClass c ≤ combiningClass d then c :: d :: ds else d :: insertByClass c ds

/-- `sort_pending`: `sort_by_key(|k| k.0)`, a stable sort by combining class.
Used in src/bip39/mnemonic.rs:146 and src/bip39/seed.rs:34. -/
def sortPending : Str → Str
  | [] => []
  | c :: cs => insertByClass c (sortPending cs)

/-- The `Decompositions` iterator: decomposed characters wait in a buffer; a character of class 0
first sorts and releases what is waiting, and so does the end of the input.
Used in src/bip39/mnemonic.rs:146 and src/bip39/seed.rs:34. -/
def reorder (pending : Str) : Str → Str
  | [] => sortPending pending
  | c :: cs =>
    if combiningClass c = 0 then sortPending pending ++ reorder [c] cs
    else reorder (pending ++ [c]) cs

/-- `s.nfkd().collect::<String>()`.  Used in src/bip39/mnemonic.rs:146 and src/bip39/seed.rs:34. -/
def nfkd (s : Str) : Str := reorder [] (s.flatMap decomposeCompatible)

end Kms
