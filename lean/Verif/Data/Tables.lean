import Lean.Elab.Term
/-
Notation for number tables written as strings; the kernel only sees list, pair and number literals.
-/
open Lean Elab Term Meta

/-- value of a hexadecimal numeral -/
private def hexNat (s : String) : Nat :=
  s.foldl (fun a c => a * 16 + (if c.isDigit then c.toNat - 48 else c.toNat - 55)) 0

private def pairs (s : String) : List (Nat × List Nat) :=
  ((s.splitOn " ").filter (· ≠ "")).map fun e =>
    match e.splitOn "=" with
    | [k, v] => (hexNat k, (v.splitOn ",").map hexNat)
    | _ => (0, [])

private def natT : Expr := Lean.mkConst ``Nat
private def listNatT : Expr := mkApp (Lean.mkConst ``List [.zero]) natT
private def pairT (b : Expr) : Expr := mkApp2 (Lean.mkConst ``Prod [.zero, .zero]) natT b
private def pairE (b : Expr) (k : Nat) (v : Expr) : Expr :=
  mkApp4 (Lean.mkConst ``Prod.mk [.zero, .zero]) natT b (mkRawNatLit k) v

/-- `decomps! "K=A,B L=C"` is `[(0xK, [0xA, 0xB]), (0xL, [0xC])]`. -/
elab "decomps! " s:str : term => do
  let es ← (pairs s.getString).mapM fun (k, v) => do
    return pairE listNatT k (← mkListLit natT (v.map mkRawNatLit))
  mkListLit (pairT listNatT) es

/-- `classes! "K=A L=B"` is `[(0xK, 0xA), (0xL, 0xB)]`. -/
elab "classes! " s:str : term => do
  let es := (pairs s.getString).map fun (k, v) => pairE natT k (mkRawNatLit (v.headD 0))
  mkListLit (pairT natT) es
