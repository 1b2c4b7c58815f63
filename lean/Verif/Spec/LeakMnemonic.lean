import Verif.Model.Leak
/-
Vocabulary of C119: the part of what is seen that is about words.
-/
namespace Kms.Spec

/-- The entries of the word list that were read, in order. -/
def wordsRead (view : List Ev) : List Nat := view.filterMap fun
  | .load "wordlist" i => some i
  | _ => none

/-- What is seen apart from reading entries of the word list and writing the phrase. -/
def otherEvents (view : List Ev) : List Ev := view.filter fun
  | .load "wordlist" _ => false
  | .store "phrase" _ => false
  | _ => true

end Kms.Spec
