import Verif.Model.Leak
/-
Vocabulary of C120: the text of a key as read off what is seen.
-/
namespace Kms.Spec

/-- The 58 characters of key text, in order. -/
def keyCharacters : List Char := "123456789ABCDEFGHJKLMNPQRSTUVWXYZabcdefghijkmnopqrstuvwxyz".toList

/-- The entries of the table of characters that were read, in order. -/
def digitsSeen (view : List Ev) : List Nat :=
  view.filterMap fun
    | .load "alphabet" d => some d
    | _ => none

/-- The text an observer of writing reads off: the characters of those entries, last one first. -/
def textWritten (view : List Ev) : List Char := ((digitsSeen view).map fun d => keyCharacters.getD d '?').reverse

/-- The text an observer of reading reads off: the entries of the table of digits that were read, which is indexed by the
code of the character. -/
def textRead (view : List Ev) : List Char :=
  view.filterMap fun
    | .load "decode" i => some (Char.ofNat i)
    | _ => none

/-- What is seen apart from reading entries of the two tables. -/
def apartFromTables (view : List Ev) : List Ev := view.filter fun
  | .load "alphabet" _ => false
  | .load "decode" _ => false
  | _ => true

end Kms.Spec
