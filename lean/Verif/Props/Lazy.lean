import Verif.Spec.Lazy
import Verif.Proofs.Lazy
import Verif.Props.Language
import Mathlib.Data.List.Forall2
/-
Property C84: the word lists under concurrent first use.
-/
namespace Kms.Props
open Kms.Bip39 Kms.Bip39.Lazy

theorem answers_valueOf (r : Spec.Request) : Spec.Answers r (valueOf r.cell) := by
  cases r with
  | wordlist l => cases l <;> exact words_eq' _
  | wordmap l =>
    have key : ∀ (w : Str) (b : BitVec 16), Language.wordmap l w = some b ↔ (Spec.words l)[b.toNat]? = some w := by
      intro w b
      rw [← (C11_wordlist_bijection l).2.2.1 w b]
      unfold Language.getBits
      cases Language.wordmap l w <;> simp
    cases l <;> exact key

/-- C84. Let any number of threads call `wordlist()` and `wordmap()` any number of times each, in a debug or a release
build, and let `sched` be any order in which their steps are taken.  Then no thread has panicked; every thread's calls
have been answered in order, each with the right word list or word map; each static has been built at most once;
whatever has been built is never replaced; if some thread still has calls to make or to finish, some thread can step
(no deadlock); and no schedule is longer than 8 steps per call, so that every execution that goes on as long as it can
ends with every call answered. -/
theorem C84_shared_wordlists (debug : Bool) (n : Nat) (reqs : Fin n → List Spec.Request) (sched : List (Fin n))
    (s : State n) (h : run debug (start (fun t => (reqs t).map Spec.Request.cell)) sched = some s) :
    (∀ t, (s.threads t).dead = false) ∧
    (∀ t, (s.threads t).got.length ≤ (reqs t).length ∧
      List.Forall₂ (fun r (p : Cell × Val) => Spec.Answers r p.2)
        ((reqs t).take (s.threads t).got.length) (s.threads t).got) ∧
    (∀ c, s.builds c ≤ 1) ∧
    (∀ c v sched' s', s.cells c = .complete v → run debug s sched' = some s' → s'.cells c = .complete v) ∧
    (∀ t, (s.threads t).got.length < (reqs t).length → ∃ u s', step debug s u = some s') ∧
    sched.length ≤ 8 * ∑ t, (reqs t).length := by
  have inv := inv_run (inv_start _) h
  refine ⟨fun t => (inv.threads t).alive, ?_, ?_, ?_, ?_, ?_⟩
  · intro t
    obtain ⟨-, -, ho, hr⟩ := inv.threads t
    generalize (s.threads t).got = got at ho hr
    rw [List.append_assoc] at ho
    generalize asked (s.threads t).stack ++ (s.threads t).todo = rest at ho
    generalize reqs t = rs at ho
    induction got generalizing rs with
    | nil => simp
    | cons p got ih =>
      cases rs with
      | nil => simp at ho
      | cons r rs =>
        simp only [List.map_cons, List.cons_append, List.cons.injEq] at ho
        obtain ⟨a, b⟩ := ih (fun q hq => hr q (List.mem_cons_of_mem _ hq)) rs ho.2
        refine ⟨by simpa using a, ?_⟩
        simp only [List.length_cons, List.take_succ_cons]
        refine .cons ?_ b
        rw [hr p List.mem_cons_self, ho.1]
        exact answers_valueOf r
  · intro c
    rw [inv.once c]; split <;> omega
  · intro c v sched' s' hc hr
    exact run_keeps inv hr hc
  · intro t ht
    apply progress debug inv t
    by_contra hno
    rw [not_or, not_not, not_not] at hno
    have ho := (inv.threads t).order
    rw [hno.1, hno.2] at ho
    have := congrArg List.length ho
    simp [asked] at this
    omega
  · have := run_work (inv_start _) h
    have e : ∑ t, work ((start (fun t => (reqs t).map Spec.Request.cell)).threads t) = 8 * ∑ t, (reqs t).length := by
      rw [Finset.mul_sum]
      exact Finset.sum_congr rfl (fun t _ => by simp [start, work])
    omega

/-- Two threads race for the English word map: thread 1 has to wait while thread 0 builds the list for it. -/
def raceReqs : Fin 2 → List Spec.Request := fun t => if t = 0 then [.wordmap .english] else [.wordlist .english, .wordmap .english]

/-- After these steps thread 0 is building `WORDLIST_ENGLISH` from inside the closure of `WORDMAP_ENGLISH`, and
thread 1, which wants `WORDLIST_ENGLISH`, cannot step. -/
example : ∃ s, run false (start (fun t => (raceReqs t).map Spec.Request.cell)) [0, 0, 0, 0, 1] = some s ∧
    (step false s 1).isNone ∧ (step false s 0).isSome := ⟨_, rfl, rfl, rfl⟩

/-- A schedule in which every call is answered. -/
example : ∃ s, run false (start (fun t => (raceReqs t).map Spec.Request.cell)) [0, 0, 0, 0, 1, 0, 0, 1, 1, 0, 1] = some s ∧
    (s.threads 0).got.length = 1 ∧ (s.threads 1).got.length = 2 ∧
    s.builds (.list .english) = 1 ∧ s.builds (.map .english) = 1 ∧ s.builds (.map .chineseSimplified) = 0 :=
  ⟨_, rfl, rfl, rfl, rfl, rfl, rfl⟩

end Kms.Props
