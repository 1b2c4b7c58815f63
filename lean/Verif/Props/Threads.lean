import Verif.Proofs.Threads
import Mathlib.Tactic.FinCases
/-
C116: calls made by several threads at the same time.
-/
namespace Kms.Props
open Kms.Bip39 Kms.Bip39.All Kms.Bip39.Threads Kms.Spec.Threads

theorem bind_ideal {α β : Type} (x : Comp α) (k : α → Comp β) : (x.bind k).ideal = (k x.ideal).ideal := by
  induction x with
  | done a => rfl
  | force c next ih => exact ih _

theorem bind_forces {α β : Type} (x : Comp α) (k : α → Comp β) : (x.bind k).forces = x.forces + (k x.ideal).forces := by
  induction x with
  | done a => simp [Comp.bind, Comp.forces, Comp.ideal]
  | force c next ih =>
    show ((next (valueOf c)).bind k).forces + 1 = _
    rw [ih, Comp.forces, Comp.ideal]
    omega

theorem wordlistC_ideal (l : Lang) : (wordlistC l).ideal = l.wordlist ∧ (wordlistC l).forces = 1 := by
  cases l <;> exact ⟨rfl, rfl⟩

theorem wordmapC_ideal (l : Lang) : (wordmapC l).ideal = l.wordmap ∧ (wordmapC l).forces = 1 := by
  cases l <;> exact ⟨rfl, rfl⟩

theorem unchecked_ideal (H : Hashes) (e : Bytes) (l : Lang) :
    (fromEntropyUncheckedC H e l).ideal = Mnemonic.fromEntropyUnchecked H e l ∧ (fromEntropyUncheckedC H e l).forces = 1 := by
  constructor
  · refine (bind_ideal _ _).trans ?_
    rw [(wordlistC_ideal l).1]
    rfl
  · refine (bind_forces _ _).trans ?_
    rw [(wordlistC_ideal l).2]
    rfl

theorem toEntropy_ideal (H : Hashes) (p : Str) (l : Lang) :
    (phraseToEntropyC H p l).ideal = Mnemonic.phraseToEntropy H p l ∧ (phraseToEntropyC H p l).forces = 1 := by
  constructor
  · refine (bind_ideal _ _).trans ?_
    rw [(wordmapC_ideal l).1]
    rfl
  · refine (bind_forces _ _).trans ?_
    rw [(wordmapC_ideal l).2]
    rfl

theorem language_ideal (p : Str) : (languageFromPhraseC p).ideal = Lang.fromPhrase p ∧ (languageFromPhraseC p).forces ≤ 2 := by
  unfold languageFromPhraseC Lang.fromPhrase
  cases splitWhitespace p with
  | nil => exact ⟨rfl, Nat.zero_le _⟩
  | cons w ws =>
    simp only
    have h1 := wordmapC_ideal .english
    have h2 := wordmapC_ideal .chineseSimplified
    have e1 : mapC (.map .english) = wordmapC .english := rfl
    have e2 : mapC (.map .chineseSimplified) = wordmapC .chineseSimplified := rfl
    constructor
    · refine (bind_ideal _ _).trans ?_
      rw [e1, h1.1]
      split
      · rfl
      · refine (bind_ideal _ _).trans ?_
        rw [e2, h2.1]
        split <;> rfl
    · refine (bind_forces _ _).le.trans ?_
      rw [e1, h1.1, h1.2]
      split
      · exact Nat.le_succ _
      · refine Nat.add_le_add_left (m := 1) ?_ 1
        refine (bind_forces _ _).le.trans ?_
        rw [e2, h2.1, h2.2]
        split <;> exact Nat.le_refl 1

theorem fromEntropy_ideal (H : Hashes) (e : Bytes) (l : Lang) :
    (fromEntropyC H e l).ideal = All.Mnemonic.fromEntropy H e l ∧ (fromEntropyC H e l).forces ≤ 2 := by
  unfold fromEntropyC All.Mnemonic.fromEntropy
  cases MnemonicType.forKeySize (usizeMul e.length 8) with
  | ok t => exact ⟨(unchecked_ideal H e l).1, by rw [(unchecked_ideal H e l).2]; omega⟩
  | err x => exact ⟨rfl, Nat.zero_le _⟩
  | panic => exact ⟨rfl, Nat.zero_le _⟩

theorem code_ideal (H : Hashes) (c : Call) : (c.code H).ideal = answer H c ∧ (c.code H).forces ≤ 2 := by
  cases c with
  | wordlist l => exact ⟨(wordlistC_ideal l).1, (wordlistC_ideal l).2.le.trans (Nat.le_succ _)⟩
  | wordmap l => exact ⟨(wordmapC_ideal l).1, (wordmapC_ideal l).2.le.trans (Nat.le_succ _)⟩
  | languageFromPhrase p => exact language_ideal p
  | new rng t l => exact ⟨(unchecked_ideal H _ l).1, (unchecked_ideal H _ l).2.le.trans (Nat.le_succ _)⟩
  | fromEntropy e l => exact fromEntropy_ideal H e l
  | fromPhrase p l =>
    have h := toEntropy_ideal H (join [' '] ((splitWhitespace p).map nfkd)) l
    constructor
    · refine (bind_ideal _ _).trans ?_
      rw [h.1]
      rfl
    · refine (bind_forces _ _).le.trans ?_
      rw [h.2]
      exact Nat.le_succ _
  | validate p l =>
    have h := toEntropy_ideal H p l
    constructor
    · refine (bind_ideal _ _).trans ?_
      rw [h.1]
      rfl
    · refine (bind_forces _ _).le.trans ?_
      rw [h.2]
      exact Nat.le_succ _

theorem client_ideal {α : Type} (H : Hashes) (p : Client α) :
    (p.code H).ideal = alone H p ∧ (p.code H).forces ≤ 2 * calls H p := by
  induction p with
  | done a => exact ⟨rfl, Nat.zero_le _⟩
  | call c next ih =>
    obtain ⟨h1, h2⟩ := code_ideal H c
    constructor
    · refine (bind_ideal _ _).trans ?_
      rw [h1]
      exact (ih _).1
    · refine (bind_forces _ _).le.trans ?_
      have := (ih (answer H c)).2
      rw [h1, calls]
      omega

/-- The thread has ended, with the result `a`. -/
def Ended {α : Type} (th : Thread α) (a : α) : Prop := th.stack = [] ∧ th.code = .done a

/-- **C116** Let any number of threads call the public functions that read word lists (in any of the eight languages of the source, in a
debug or a release build), each thread choosing its next call by the answers it has had, and let `sched` be any order in which
their steps are taken, with all word lists and maps still to be built at the start.  Then no thread has panicked inside a static;
a thread that has ended has the result it has when it runs alone; each static was built at most once; as long as a thread
has not ended, some thread can step; and no schedule is longer than 16 steps for each call that the threads make when alone.  So
every execution that goes on as long as it can ends, and with these results. -/
theorem C116_calls_as_if_alone {α : Type} (H : Hashes) (debug : Bool) (n : Nat) (progs : Fin n → Client α) (sched : List (Fin n))
    (s : State α n) (h : run debug (start fun t => (progs t).code H) sched = some s) :
    (∀ t, (s.threads t).dead = false) ∧
    (∀ t a, Ended (s.threads t) a → a = alone H (progs t)) ∧
    (∀ c, s.builds c ≤ 1) ∧
    (∀ t, (∀ a, ¬ Ended (s.threads t) a) → ∃ u s', step debug s u = some s') ∧
    sched.length ≤ 16 * ∑ t, calls H (progs t) := by
  have inv := inv_run (inv_start _) h
  refine ⟨fun t => (inv.threads t).alive, fun t a ha => ?_, fun c => ?_, fun t ht => ?_, ?_⟩
  · have := (inv.threads t).right
    rw [ha.2, (client_ideal H _).1] at this
    exact this
  · rw [inv.once c]; split <;> omega
  · apply progress debug inv t
    by_contra hno
    rw [not_or, not_not] at hno
    apply hno.2
    intro a ha
    exact ht a ⟨hno.1, ha⟩
  · have := run_work (inv_start _) h
    have e : ∑ t, work ((start fun t => (progs t).code H).threads t) ≤ 16 * ∑ t, calls H (progs t) := by
      rw [Finset.mul_sum]
      refine Finset.sum_le_sum fun t _ => ?_
      have := (client_ideal H (progs t)).2
      simp only [start, work, left, List.map_nil, List.sum_nil]
      omega
    omega

/-- **C116** When no thread can step any more, every thread has ended with the result it has alone. -/
theorem C116_all_end {α : Type} (H : Hashes) (debug : Bool) (n : Nat) (progs : Fin n → Client α) (sched : List (Fin n))
    (s : State α n) (h : run debug (start fun t => (progs t).code H) sched = some s) (hs : ∀ u, step debug s u = none) (t : Fin n) :
    Ended (s.threads t) (alone H (progs t)) := by
  obtain ⟨_, h2, _, h4, _⟩ := C116_calls_as_if_alone H debug n progs sched s h
  by_cases ha : ∃ a, Ended (s.threads t) a
  · obtain ⟨a, ha⟩ := ha
    rw [← h2 t a ha]
    exact ha
  · obtain ⟨u, s', hu⟩ := h4 t fun a h => ha ⟨a, h⟩
    rw [hs u] at hu
    cases hu

/-- Thread 0 reads a phrase in French and then fetches the Spanish list; thread 1 finds out the language of a phrase, and if there
is one, validates the phrase in it. -/
def raceClients (p : Str) : Fin 2 → Client Bool := fun t =>
  if t = 0 then .call (.fromPhrase p .french) fun r => .call (.wordlist .spanish) fun ws => .done (r.isOk && ws.length == 2048)
  else .call (.languageFromPhrase p) fun
    | none => .done false
    | some l => .call (.validate p l) fun r => .done r.isOk

/-- After these steps thread 0 is building the French list from inside the closure of the French map, and thread 1 the English one. -/
example (H : Hashes) : ∃ s, run false (start fun t => (raceClients "abandon".toList t).code H) [0, 0, 0, 1, 1, 0, 1, 1] = some s ∧
    s.builds (.list .french) = 1 ∧ s.builds (.list .english) = 1 ∧ s.builds (.list .spanish) = 0 ∧
    (step false s 0).isSome ∧ (step false s 1).isSome := ⟨_, rfl, rfl, rfl, rfl, rfl, rfl⟩

/-- Two threads ask for the same list; the second has to wait while the first builds it, and both end with it. -/
example (H : Hashes) : ∃ s s',
    run false (start fun _ : Fin 2 => (Client.call (.wordlist .korean) fun ws => .done ws).code H) [0, 1, 0] = some s ∧
    (step false s 1).isNone ∧ run false s [0, 0, 1] = some s' ∧ (∀ u, step false s' u = none) ∧
    Ended (s'.threads 1) Lang.korean.wordlist :=
  ⟨_, _, rfl, rfl, rfl, fun u => by fin_cases u <;> rfl, rfl, rfl⟩

end Kms.Props
