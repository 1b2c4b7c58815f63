import Verif.Model.ChildNumber
/-
`DerivationPath::extend` over a caller's own iterator, which may keep state, give any numbers, never end, misstate how many
are left, or panic.
-/
namespace Kms.Bip32

/-- An implementation of `Iterator<Item = ChildNumber>` with state of its own.  `sizeHint` answers the lower bound, the only
part that `Vec::extend` uses; it may change the state through a cell.  The argument of src/bip32/derivation_path.rs:72-77. -/
structure ChildIter (σ : Type) where
  next : σ → Res Empty (Option ChildNumber) × σ
  sizeHint : σ → Res Empty Nat × σ

/-- What the iterator was asked, and its answer.  Used in src/bip32/derivation_path.rs:76. -/
inductive Asked where
  | next (answer : Res Empty (Option ChildNumber))
  | sizeHint (answer : Res Empty Nat)

/-- The vector inside of a path, seen from `extend`: whether it is full at a length (`len == capacity`; which lengths these
are depends on the history of the vector and on how it grows), and the number of elements beyond which `reserve` panics with
"capacity overflow" (`isize::MAX / 4`).  Used in src/bip32/derivation_path.rs:76. -/
structure VecGrowth where
  full : Nat → Bool
  maxLen : Nat

namespace DerivationPath
variable {σ : Type}

/-- src/bip32/derivation_path.rs:70-77 `extend`, with `Vec::extend_desugared` of the standard library: the next number is
taken from the iterator; if the vector is full, the iterator is asked how many are left and room is made for them and for this
one; then the number is stored.  The result after at most `calls` calls of `next`: the outcome (none: still running), the
path, the iterator, and what it was asked.  Memory is not modelled: allocations succeed. -/
def extendFrom (I : ChildIter σ) (v : VecGrowth) : Nat → DerivationPath → σ →
    Option (Res Empty Unit) × DerivationPath × σ × List Asked
  | 0, p, s => (none, p, s, [])
  | calls + 1, p, s =>
    match I.next s with
    | (.panic, s) => (some .panic, p, s, [.next .panic])
    | (.ok none, s) => (some (.ok ()), p, s, [.next (.ok none)])
    | (.ok (some c), s) =>
      if v.full p.path.length then
        match I.sizeHint s with
        | (.panic, s) => (some .panic, p, s, [.next (.ok (some c)), .sizeHint .panic])
        | (.ok lower, s) =>
          if v.maxLen < p.path.length + (lower + 1) then
            (some .panic, p, s, [.next (.ok (some c)), .sizeHint (.ok lower)])
          else
            let r := extendFrom I v calls (p.push c) s
            (r.1, r.2.1, r.2.2.1, .next (.ok (some c)) :: .sizeHint (.ok lower) :: r.2.2.2)
      else
        let r := extendFrom I v calls (p.push c) s
        (r.1, r.2.1, r.2.2.1, .next (.ok (some c)) :: r.2.2.2)

/-- src/bip32/derivation_path.rs:70-77 `extend`, with `Vec::extend_trusted`, which the standard library takes for those of its
own iterators whose length is certain (a caller's code is in them when they are mapped): room is made for all numbers first,
then they are stored one by one.  A vector that is left by a panic keeps those stored. -/
def extendTrusted (I : ChildIter σ) (v : VecGrowth) (calls : Nat) (p : DerivationPath) (s : σ) :
    Option (Res Empty Unit) × DerivationPath × σ × List Asked :=
  match I.sizeHint s with
  | (.panic, s) => (some .panic, p, s, [.sizeHint .panic])
  | (.ok count, s) =>
    if v.maxLen < p.path.length + count then (some .panic, p, s, [.sizeHint (.ok count)])
    else
      let r := extendFrom I { v with full := fun _ => false } calls p s
      (r.1, r.2.1, r.2.2.1, .sizeHint (.ok count) :: r.2.2.2)

end DerivationPath
end Kms.Bip32
