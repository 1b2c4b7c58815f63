import Verif.Model.Language
import Mathlib.Logic.Function.Basic
/-
src/bip39/language.rs:40-102 `mod lazy`: the word lists and word maps are statics of type
`once_cell::sync::Lazy`, built by whichever thread asks first.  `Language.wordlist` and `Language.wordmap`
(Verif/Model/Language.lean) are the values; this file models the threads that obtain them.

`once_cell` is a dependency.  What is modelled of it (once_cell 1.8, `sync::Lazy::force` and
`imp_std::OnceCell::initialize`): a cell is incomplete, being initialised, or complete; a thread that finds it
complete reads it; a thread that finds it being initialised waits; a thread that finds it incomplete starts to
initialise it, takes the closure out of the `Lazy` and runs it, panicking if the closure is gone (the `Lazy` is
poisoned); a panic while initialising makes the cell incomplete again.  Each of these is one atomic step, and a
schedule is any order of steps of any number of threads.
-/
namespace Kms.Bip39.Lazy

/-- The statics: `list l` is `WORDLIST_l`, `map l` is `WORDMAP_l`.  src/bip39/language.rs:65-68, :88-90. -/
inductive Cell where
  | list (l : Language)
  | map (l : Language)
  deriving DecidableEq, Repr

/-- What a static holds.  `once_cell::sync::Lazy` as used in src/bip39/language.rs:65-103. -/
inductive Val where
  | list (ws : WordList)
  | map (m : WordMap)

/-- The body of an initialising closure: `gen_wordlist(include_str!(..))` or `gen_wordmap(&OTHER)`, where
dereferencing `OTHER` forces it.  `once_cell::sync::Lazy` as used in src/bip39/language.rs:65-103. -/
inductive Init where
  | genList (text : Str)
  | genMap (of : Cell)

/-- The closures of the four statics, src/bip39/language.rs:65-68 and :88-90. -/
def closure : Cell → Init
  | .list .english => .genList englishTxt
  | .list .chineseSimplified => .genList chineseSimplifiedTxt
  | .map .english => .genMap (.list .english)
  | .map .chineseSimplified => .genMap (.list .chineseSimplified)

/-- The static that `Language::wordlist` dereferences, src/bip39/language.rs:173-176. -/
def wordlistCell : Language → Cell
  | .english => .list .english
  | .chineseSimplified => .list .chineseSimplified

/-- The static that `Language::wordmap` dereferences, src/bip39/language.rs:196-199. -/
def wordmapCell : Language → Cell
  | .english => .map .english
  | .chineseSimplified => .map .chineseSimplified

/-- `gen_wordlist`, src/bip39/language.rs:45-51, with its `debug_assert!`, which is checked only in builds with
debug assertions; `none` is a panic. -/
def genWordlistChecked (debug : Bool) (text : Str) : Option WordList :=
  let inner := genWordlist text
  if debug && inner.length != 2048 then none else some inner

/-- State of a `OnceCell`.  `once_cell::sync::Lazy` as used in src/bip39/language.rs:65-103. -/
inductive CellState where
  | incomplete
  | running
  | complete (v : Val)

/-- What a thread is doing, innermost first.  `once_cell::sync::Lazy` as used in src/bip39/language.rs:65-103. -/
inductive Frame where
  /-- in `Lazy::force(c)`, before looking at the cell -/
  | enter (c : Cell)
  /-- has made `c` running and taken its closure; about to run it -/
  | build (c : Cell)
  /-- in the closure of `c`, inside `gen_wordmap(&OTHER)`, while `OTHER` is being forced -/
  | wait (c : Cell)
  /-- the closure of `c` has returned `v`; about to store it -/
  | store (c : Cell) (v : Val)

/-- A thread: the statics it is going to dereference, its stack, what it has obtained so far (oldest first), and
whether it has panicked.  `once_cell::sync::Lazy` as used in src/bip39/language.rs:65-103. -/
structure Thread where
  todo : List Cell
  stack : List Frame := []
  got : List (Cell × Val) := []
  dead : Bool := false

/-- The state of the process: the cells, whether their closures are still there, how often each closure has been
started, and the threads.  `once_cell::sync::Lazy` as used in src/bip39/language.rs:65-103. -/
structure State (n : Nat) where
  cells : Cell → CellState
  closures : Cell → Bool
  builds : Cell → Nat
  threads : Fin n → Thread

/-- Process start: nothing has been forced.  `once_cell::sync::Lazy` as used in src/bip39/language.rs:65-103. -/
def start {n : Nat} (progs : Fin n → List Cell) : State n where
  cells := fun _ => .incomplete
  closures := fun _ => true
  builds := fun _ => 0
  threads := fun t => { todo := progs t }

/-- `force(c)` returns `v` to the frame below: to `gen_wordmap`, or to the thread's own code.
`once_cell::sync::Lazy` as used in src/bip39/language.rs:65-103. -/
def ret (th : Thread) (c : Cell) (v : Val) (below : List Frame) : Thread :=
  match below, v with
  | .wait d :: rest, .list ws => { th with stack := .store d (.map (genWordmap ws)) :: rest }
  | rest, v => { th with stack := rest, got := th.got ++ [(c, v)] }

/-- The cells a stack is initialising.  `once_cell::sync::Lazy` as used in src/bip39/language.rs:65-103. -/
def held : List Frame → List Cell
  | [] => []
  | .enter _ :: fs => held fs
  | .build c :: fs => c :: held fs
  | .wait c :: fs => c :: held fs
  | .store c _ :: fs => c :: held fs

/-- A panic of thread `t`: unwinding drops the guards, which make the cells it was initialising incomplete.
`once_cell::sync::Lazy` as used in src/bip39/language.rs:65-103. -/
def panic {n : Nat} (s : State n) (t : Fin n) : State n :=
  { s with
    cells := fun c => if c ∈ held (s.threads t).stack then .incomplete else s.cells c
    threads := Function.update s.threads t { s.threads t with stack := [], todo := [], dead := true } }

/-- One step of thread `t`; `none` when it has nothing to do or has to wait.
`once_cell::sync::Lazy` as used in src/bip39/language.rs:65-103. -/
def step {n : Nat} (debug : Bool) (s : State n) (t : Fin n) : Option (State n) :=
  let th := s.threads t
  match th.stack with
  | [] =>
    match th.todo with
    | [] => none
    | c :: cs => some { s with threads := Function.update s.threads t { th with todo := cs, stack := [.enter c] } }
  | .enter c :: below =>
    match s.cells c with
    | .complete v => some { s with threads := Function.update s.threads t (ret th c v below) }
    | .running => none
    | .incomplete =>
      let s1 : State n := { s with
        cells := Function.update s.cells c .running
        threads := Function.update s.threads t { th with stack := .build c :: below } }
      if s.closures c then
        some { s1 with
          closures := Function.update s.closures c false
          builds := Function.update s.builds c (s.builds c + 1) }
      else some (panic s1 t)
  | .build c :: below =>
    match closure c with
    | .genList text =>
      match genWordlistChecked debug text with
      | some ws =>
        some { s with threads := Function.update s.threads t { th with stack := .store c (.list ws) :: below } }
      | none => some (panic s t)
    | .genMap d =>
      some { s with threads := Function.update s.threads t { th with stack := .enter d :: .wait c :: below } }
  | .wait _ :: _ => none        -- never on top of a stack
  | .store c v :: below =>
    some { s with
      cells := Function.update s.cells c (.complete v)
      threads := Function.update s.threads t (ret th c v below) }

/-- Running a schedule: the threads to step, in order; `none` if one of them cannot step when its turn comes.
`once_cell::sync::Lazy` as used in src/bip39/language.rs:65-103. -/
def run {n : Nat} (debug : Bool) (s : State n) : List (Fin n) → Option (State n)
  | [] => some s
  | t :: ts =>
    match step debug s t with
    | none => none
    | some s' => run debug s' ts

end Kms.Bip39.Lazy
