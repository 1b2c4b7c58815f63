import Verif.Model.Lazy
import Verif.Model.AllLanguages
/-
Threads of a program that call the public functions of src/bip39 at the same time.  The only state that calls share is in the
statics of src/bip39/language.rs:40-102 (`once_cell::sync::Lazy`, as in Model/Lazy.lean, here for all eight languages of the
source).  A call is modelled as a computation that dereferences statics in the order of the source and computes from what it
finds in them; a thread runs any number of calls, and may choose them by the results of earlier ones.
-/
namespace Kms.Bip39.Threads
open Kms.Bip39.All
open Kms.Bip39.Lazy (Val CellState genWordlistChecked)

/-- The statics: `list l` is `WORDLIST_l`, `map l` is `WORDMAP_l`, src/bip39/language.rs:65-102. -/
inductive Cell where
  | list (l : Lang)
  | map (l : Lang)
  deriving DecidableEq, Repr

/-- The body of an initialising closure: `gen_wordlist(include_str!(..))` or `gen_wordmap(&OTHER)`.
`once_cell::sync::Lazy` as used in src/bip39/language.rs:65-103. -/
inductive Init where
  | genList (text : Str)
  | genMap (of : Cell)

/-- The closures of the sixteen statics, src/bip39/language.rs:65-102. -/
def closure : Cell → Init
  | .list .english => .genList (fileTxt Data.english)
  | .list .chineseSimplified => .genList (fileTxt Data.chineseSimplified)
  | .list .chineseTraditional => .genList (fileTxt Data.chineseTraditional)
  | .list .french => .genList (fileTxt Data.french)
  | .list .italian => .genList (fileTxt Data.italian)
  | .list .japanese => .genList (fileTxt Data.japanese)
  | .list .korean => .genList (fileTxt Data.korean)
  | .list .spanish => .genList (fileTxt Data.spanish)
  | .map .english => .genMap (.list .english)
  | .map .chineseSimplified => .genMap (.list .chineseSimplified)
  | .map .chineseTraditional => .genMap (.list .chineseTraditional)
  | .map .french => .genMap (.list .french)
  | .map .italian => .genMap (.list .italian)
  | .map .japanese => .genMap (.list .japanese)
  | .map .korean => .genMap (.list .korean)
  | .map .spanish => .genMap (.list .spanish)

/-- The static that `Language::wordlist` dereferences, src/bip39/language.rs:173-190. -/
def wordlistCell : Lang → Cell
  | .english => .list .english
  | .chineseSimplified => .list .chineseSimplified
  | .chineseTraditional => .list .chineseTraditional
  | .french => .list .french
  | .italian => .list .italian
  | .japanese => .list .japanese
  | .korean => .list .korean
  | .spanish => .list .spanish

/-- The static that `Language::wordmap` dereferences, src/bip39/language.rs:196-213. -/
def wordmapCell : Lang → Cell
  | .english => .map .english
  | .chineseSimplified => .map .chineseSimplified
  | .chineseTraditional => .map .chineseTraditional
  | .french => .map .french
  | .italian => .map .italian
  | .japanese => .map .japanese
  | .korean => .map .korean
  | .spanish => .map .spanish

/-- Code that dereferences statics: it is finished, or it dereferences `c` and goes on with the value.
`once_cell::sync::Lazy` as used in src/bip39/language.rs:65-103. -/
inductive Comp (α : Type) where
  | done (a : α)
  | force (c : Cell) (next : Val → Comp α)

/-- One piece of code after another.  `once_cell::sync::Lazy` as used in src/bip39/language.rs:65-103. -/
def Comp.bind {α β : Type} : Comp α → (α → Comp β) → Comp β
  | .done a, k => k a
  | .force c next, k => .force c fun v => (next v).bind k

/-- `once_cell::sync::Lazy` as used in src/bip39/language.rs:65-103. -/
instance : Monad Comp where
  pure := .done
  bind := Comp.bind

/-- src/bip39/language.rs:173-190 `wordlist`; the type of the static says that it is a `WordList`. -/
def wordlistC (l : Lang) : Comp WordList :=
  .force (wordlistCell l) fun
    | .list ws => .done ws
    | .map _ => .done []

/-- A static of type `WordMap`.  `once_cell::sync::Lazy` as used in src/bip39/language.rs:65-103. -/
def mapC (c : Cell) : Comp WordMap :=
  .force c fun
    | .map m => .done m
    | .list _ => .done fun _ => none

/-- src/bip39/language.rs:196-213 `wordmap` -/
def wordmapC (l : Lang) : Comp WordMap := mapC (wordmapCell l)

/-- src/bip39/language.rs:155-170 `from_phrase`: the second static is dereferenced only if the first has no such word. -/
def languageFromPhraseC (phrase : Str) : Comp (Option Lang) :=
  match splitWhitespace phrase with
  | word :: _ => do
    let en ← mapC (.map .english)
    if (Language.getBits en word).isOk then pure (some .english)
    else do
      let zh ← mapC (.map .chineseSimplified)
      if (Language.getBits zh word).isOk then pure (some .chineseSimplified) else pure none
  | [] => pure none

/-- src/bip39/mnemonic.rs:94-124 `from_entropy_unchecked` -/
def fromEntropyUncheckedC (H : Hashes) (entropy : Bytes) (lang : Lang) : Comp (Res ErrorKind All.Mnemonic) := do
  let wordlist ← wordlistC lang
  let checksumByte := H.sha256FirstByte entropy
  pure (do
    let words ← getWords wordlist (BitIter.new (entropy ++ [checksumByte])).toList
    .ok { phrase := join [' '] words, lang, entropy })

/-- src/bip39/mnemonic.rs:87-92 `from_entropy`: a slice of a wrong size is refused before anything is dereferenced. -/
def fromEntropyC (H : Hashes) (entropy : Bytes) (lang : Lang) : Comp (Res ErrorKind All.Mnemonic) :=
  match MnemonicType.forKeySize (usizeMul entropy.length 8) with
  | .ok _ => fromEntropyUncheckedC H entropy lang
  | .err e => pure (.err e)
  | .panic => pure .panic

/-- src/bip39/mnemonic.rs:66-70 `new` -/
def newC (H : Hashes) (rng : (n : Nat) → ByteArr n) (mtype : MnemonicType) (lang : Lang) : Comp (Res ErrorKind All.Mnemonic) :=
  fromEntropyUncheckedC H (rng (mtype.entropyBits / 8)).1 lang

/-- src/bip39/mnemonic.rs:188-221 `phrase_to_entropy` -/
def phraseToEntropyC (H : Hashes) (phrase : Str) (lang : Lang) : Comp (Res ErrorKind Bytes) := do
  let wordmap ← wordmapC lang
  pure (do
    let bits ← pushWords wordmap (splitChar ' ' phrase) BitWriter.withCapacity
    let mtype ← MnemonicType.forWordCount (bits.len / 11)
    if bits.len ≠ mtype.totalBits then .panic else do
    let entropy := bits.intoBytes
    let entropyBytes := mtype.entropyBits / 8
    let last ← index entropy entropyBytes
    let actualChecksum ← checksum' last mtype.checksumBits
    let entropy := entropy.take entropyBytes
    let checksumByte := H.sha256FirstByte entropy
    let expectedChecksum ← checksum' checksumByte mtype.checksumBits
    if actualChecksum ≠ expectedChecksum then .err .invalidChecksum
    else .ok entropy)

/-- src/bip39/mnemonic.rs:143-161 `from_phrase` -/
def fromPhraseC (H : Hashes) (phrase : Str) (lang : Lang) : Comp (Res ErrorKind All.Mnemonic) := do
  let phrase := join [' '] ((splitWhitespace phrase).map nfkd)
  let entropy ← phraseToEntropyC H phrase lang
  pure (do
    let entropy ← entropy
    .ok { phrase, lang, entropy })

/-- src/bip39/mnemonic.rs:177-181 `validate` -/
def validateC (H : Hashes) (phrase : Str) (lang : Lang) : Comp (Res ErrorKind Unit) := do
  let entropy ← phraseToEntropyC H phrase lang
  pure (do
    let _ ← entropy
    .ok ())

/-- A call of a public function that dereferences statics.  `Mnemonic::new` comes with the bytes its generator will deliver.
The public functions of src/bip39 that reach src/bip39/language.rs:155-213. -/
inductive Call where
  | wordlist (l : Lang)
  | wordmap (l : Lang)
  | languageFromPhrase (phrase : Str)
  | new (rng : (n : Nat) → ByteArr n) (mtype : MnemonicType) (lang : Lang)
  | fromEntropy (entropy : Bytes) (lang : Lang)
  | fromPhrase (phrase : Str) (lang : Lang)
  | validate (phrase : Str) (lang : Lang)

/-- What a call returns.  The public functions of src/bip39 that reach src/bip39/language.rs:155-213. -/
def Call.Out : Call → Type
  | .wordlist _ => WordList
  | .wordmap _ => WordMap
  | .languageFromPhrase _ => Option Lang
  | .new _ _ _ | .fromEntropy _ _ | .fromPhrase _ _ => Res ErrorKind All.Mnemonic
  | .validate _ _ => Res ErrorKind Unit

/-- The code of a call.  The public functions of src/bip39 that reach src/bip39/language.rs:155-213. -/
def Call.code (H : Hashes) : (c : Call) → Comp c.Out
  | .wordlist l => wordlistC l
  | .wordmap l => wordmapC l
  | .languageFromPhrase p => languageFromPhraseC p
  | .new rng t l => newC H rng t l
  | .fromEntropy e l => fromEntropyC H e l
  | .fromPhrase p l => fromPhraseC H p l
  | .validate p l => validateC H p l

/-- What the user's thread does: it ends with a result of its own, or makes a call and goes on as the answer says.  (Code of the
user between calls, and calls that dereference no static, are functions of the answers so far.).
The caller of the public functions of src/bip39; models no lines of src/ of its own. -/
inductive Client (α : Type) where
  | done (a : α)
  | call (c : Call) (next : c.Out → Client α)

/-- The code a thread runs.  The caller of the public functions of src/bip39; models no lines of src/ of its own. -/
def Client.code {α : Type} (H : Hashes) : Client α → Comp α
  | .done a => .done a
  | .call c next => (c.code H).bind fun r => (next r).code H

/-- What a thread is doing inside `once_cell`, innermost first.
`once_cell::sync::Lazy` as used in src/bip39/language.rs:65-103. -/
inductive Frame where
  /-- in `Lazy::force(c)`, before looking at the cell -/
  | enter (c : Cell)
  /-- has made `c` running and taken its closure; about to run it -/
  | build (c : Cell)
  /-- in the closure of `c`, inside `gen_wordmap(&OTHER)`, while `OTHER` is being forced -/
  | wait (c : Cell)
  /-- the closure of `c` has returned `v`; about to store it -/
  | store (c : Cell) (v : Val)

/-- A thread: the code it has still to run (beginning with the dereference that is going on, if there is one), the frames of that
dereference, and whether it has panicked inside `once_cell`.
`once_cell::sync::Lazy` as used in src/bip39/language.rs:65-103. -/
structure Thread (α : Type) where
  code : Comp α
  stack : List Frame := []
  dead : Bool := false

/-- The state of the process, as in Model/Lazy.lean.  `once_cell::sync::Lazy` as used in src/bip39/language.rs:65-103. -/
structure State (α : Type) (n : Nat) where
  cells : Cell → CellState
  closures : Cell → Bool
  builds : Cell → Nat
  threads : Fin n → Thread α

/-- Process start.  `once_cell::sync::Lazy` as used in src/bip39/language.rs:65-103. -/
def start {α : Type} {n : Nat} (progs : Fin n → Comp α) : State α n where
  cells := fun _ => .incomplete
  closures := fun _ => true
  builds := fun _ => 0
  threads := fun t => { code := progs t }

/-- The code goes on with the value of the static.  `once_cell::sync::Lazy` as used in src/bip39/language.rs:65-103. -/
def Comp.resume {α : Type} : Comp α → Val → Comp α
  | .done a, _ => .done a
  | .force _ next, v => next v

/-- `force(c)` returns `v` to the frame below: to `gen_wordmap`, or to the thread's own code.
`once_cell::sync::Lazy` as used in src/bip39/language.rs:65-103. -/
def ret {α : Type} (th : Thread α) (v : Val) (below : List Frame) : Thread α :=
  match below, v with
  | .wait d :: rest, .list ws => { th with stack := .store d (.map (genWordmap ws)) :: rest }
  | rest, v => { th with stack := rest, code := th.code.resume v }

/-- The cells a stack is initialising.  `once_cell::sync::Lazy` as used in src/bip39/language.rs:65-103. -/
def held : List Frame → List Cell
  | [] => []
  | .enter _ :: fs => held fs
  | .build c :: fs => c :: held fs
  | .wait c :: fs => c :: held fs
  | .store c _ :: fs => c :: held fs

/-- A panic of thread `t` inside `once_cell`: the cells it was initialising become incomplete.
`once_cell::sync::Lazy` as used in src/bip39/language.rs:65-103. -/
def panic {α : Type} {n : Nat} (s : State α n) (t : Fin n) : State α n :=
  { s with
    cells := fun c => if c ∈ held (s.threads t).stack then .incomplete else s.cells c
    threads := Function.update s.threads t { s.threads t with stack := [], dead := true } }

/-- One step of thread `t`; `none` when it is finished, dead, or has to wait.
`once_cell::sync::Lazy` as used in src/bip39/language.rs:65-103. -/
def step {α : Type} {n : Nat} (debug : Bool) (s : State α n) (t : Fin n) : Option (State α n) :=
  let th := s.threads t
  if th.dead then none else
  match th.stack with
  | [] =>
    match th.code with
    | .done _ => none
    | .force c _ => some { s with threads := Function.update s.threads t { th with stack := [.enter c] } }
  | .enter c :: below =>
    match s.cells c with
    | .complete v => some { s with threads := Function.update s.threads t (ret th v below) }
    | .running => none
    | .incomplete =>
      let s1 : State α n := { s with
        cells := Function.update s.cells c .running
        threads := Function.update s.threads t { th with stack := .build c :: below } }
      if s.closures c then
        some { s1 with
          closures := Function.update s.closures c false
          builds := Function.update s.builds c (s.builds c + 1) }
      else some (panic s1 t)
  | .build c :: below =>
    match closure c with
    | .genList text =>
      match genWordlistChecked debug text with
      | some ws =>
        some { s with threads := Function.update s.threads t { th with stack := .store c (.list ws) :: below } }
      | none => some (panic s t)
    | .genMap d =>
      some { s with threads := Function.update s.threads t { th with stack := .enter d :: .wait c :: below } }
  | .wait _ :: _ => none        -- never on top of a stack
  | .store c v :: below =>
    some { s with
      cells := Function.update s.cells c (.complete v)
      threads := Function.update s.threads t (ret th v below) }

/-- Running a schedule: the threads to step, in order; `none` if one of them cannot step when its turn comes.
`once_cell::sync::Lazy` as used in src/bip39/language.rs:65-103. -/
def run {α : Type} {n : Nat} (debug : Bool) (s : State α n) : List (Fin n) → Option (State α n)
  | [] => some s
  | t :: ts =>
    match step debug s t with
    | none => none
    | some s' => run debug s' ts

end Kms.Bip39.Threads
