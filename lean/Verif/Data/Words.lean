import Lean.Elab.Term
/-
`words! "a b c"` is notation for the list of character lists `[['a'], ['b'], ['c']]`:
the string is split at single spaces while elaborating, so the kernel only sees list and
character literals.
-/
open Lean Elab Term Meta in
/-- Notation for a list of words given as one string. -/
elab "words! " s:str : term => do
  let parts := (s.getString.splitOn " ").filter (· ≠ "")
  let mkChar (c : Char) : Expr := mkApp (Lean.mkConst ``Char.ofNat) (mkRawNatLit c.toNat)
  let charT := Lean.mkConst ``Char
  let mkWord (w : String) : MetaM Expr := mkListLit charT (w.toList.map mkChar)
  let ws ← parts.mapM fun w => mkWord w
  mkListLit (mkApp (Lean.mkConst ``List [.zero]) charT) ws
