import Verif.Spec.Threads
import Verif.Props.AllLanguages
import Mathlib.Algebra.BigOperators.Fin
import Mathlib.Algebra.Order.BigOperators.Group.Finset
/-
The invariant of threads that call the API at the same time, progress, and the bound on the number of steps.
-/
namespace Kms.Bip39.Threads
open Kms.Bip39.All
open Kms.Bip39.Lazy (Val CellState genWordlistChecked)

/-- The value every thread should obtain from a static. -/
def valueOf : Cell → Val
  | .list l => .list l.wordlist
  | .map l => .map l.wordmap

/-- The stacks that occur. -/
inductive Shape : List Frame → Prop
  | nil : Shape []
  | enter (c : Cell) : Shape [.enter c]
  | build (c : Cell) : Shape [.build c]
  | store (c : Cell) : Shape [.store c (valueOf c)]
  | enterW (l : Lang) : Shape [.enter (.list l), .wait (.map l)]
  | buildW (l : Lang) : Shape [.build (.list l), .wait (.map l)]
  | storeW (l : Lang) : Shape [.store (.list l) (valueOf (.list l)), .wait (.map l)]

/-- The cell a frame is about. -/
def Frame.cell : Frame → Cell
  | .enter c => c
  | .build c => c
  | .wait c => c
  | .store c _ => c

/-- The request being served: the outermost frame. -/
def asked (st : List Frame) : List Cell := (st.getLast?.map Frame.cell).toList

/-- The result of code that finds in each static the value it should. -/
def Comp.ideal {α : Type} : Comp α → α
  | .done a => a
  | .force c next => (next (valueOf c)).ideal

/-- How many dereferences it makes then. -/
def Comp.forces {α : Type} : Comp α → Nat
  | .done _ => 0
  | .force c next => (next (valueOf c)).forces + 1

structure ThreadOk {α : Type} (a : α) (th : Thread α) : Prop where
  alive : th.dead = false
  shape : Shape th.stack
  code : ∀ c ∈ asked th.stack, ∃ next, th.code = .force c next
  right : th.code.ideal = a

structure Inv {α : Type} {n : Nat} (ends : Fin n → α) (s : State α n) : Prop where
  complete : ∀ c v, s.cells c = .complete v → v = valueOf c
  avail : ∀ c, s.closures c = true ↔ s.cells c = .incomplete
  once : ∀ c, s.builds c = if s.closures c then 0 else 1
  threads : ∀ t, ThreadOk (ends t) (s.threads t)
  owner : ∀ c, s.cells c = .running → ∃ t, c ∈ held (s.threads t).stack
  taken : ∀ t, ∀ c ∈ held (s.threads t).stack, s.closures c = false

theorem inv_start {α : Type} {n : Nat} (progs : Fin n → Comp α) : Inv (fun t => (progs t).ideal) (start progs) := by
  refine ⟨?_, ?_, ?_, ?_, ?_, ?_⟩
  · intro c v h; simp [start] at h
  · intro c; simp [start]
  · intro c; simp [start]
  · intro t; exact ⟨rfl, .nil, by simp [start, asked], rfl⟩
  · intro c h; simp [start] at h
  · intro t c h; simp [start, held] at h

theorem genWordlistChecked_closure (debug : Bool) (l : Lang) (text : Str)
    (h : closure (.list l) = .genList text) : genWordlistChecked debug text = some l.wordlist := by
  have e : genWordlist text = l.wordlist := by
    cases l <;> (simp only [closure, Init.genList.injEq] at h; subst h; rfl)
  have hl := All.wordlist_length l
  simp [Lazy.genWordlistChecked, e, hl]

theorem closure_list (l : Lang) : ∃ text, closure (.list l) = .genList text := by
  cases l <;> exact ⟨_, rfl⟩

theorem closure_map (l : Lang) : closure (.map l) = .genMap (.list l) := by
  cases l <;> rfl

/-- Changing only thread `t`, to one that holds the same cells. -/
theorem inv_update {α : Type} {n : Nat} {ends : Fin n → α} {s : State α n} (h : Inv ends s) (t : Fin n) (th : Thread α)
    (ok : ThreadOk (ends t) th) (hh : ∀ c, c ∈ held th.stack ↔ c ∈ held (s.threads t).stack) :
    Inv ends { s with threads := Function.update s.threads t th } := by
  refine ⟨h.complete, h.avail, h.once, ?_, ?_, ?_⟩
  · intro u
    by_cases e : u = t
    · subst e; simpa using ok
    · simpa [Function.update_of_ne e] using h.threads u
  · intro c hc
    obtain ⟨u, hu⟩ := h.owner c hc
    by_cases e : u = t
    · subst e; exact ⟨u, by simpa using (hh c).mpr hu⟩
    · exact ⟨u, by simpa [Function.update_of_ne e] using hu⟩
  · intro u c hc
    by_cases e : u = t
    · subst e; exact h.taken u c ((hh c).mp (by simpa using hc))
    · exact h.taken u c (by simpa [Function.update_of_ne e] using hc)

/-- What the thread looks like after `force(c)` has returned. -/
theorem ret_ok {α : Type} {a : α} {th : Thread α} {c : Cell} {f : Frame} {below : List Frame}
    (ok : ThreadOk a th) (hst : th.stack = f :: below) (hf : f.cell = c)
    (hs : Shape (.enter c :: below)) :
    ThreadOk a (ret th (valueOf c) below) ∧
    (∀ d, d ∈ held (ret th (valueOf c) below).stack ↔ d ∈ held below) := by
  cases hs with
  | enter c =>
    obtain ⟨next, hn⟩ := ok.code c (by rw [hst]; simp [asked, hf])
    refine ⟨⟨?_, ?_, ?_, ?_⟩, ?_⟩
    · simpa [ret] using ok.alive
    · simpa [ret] using Shape.nil
    · simp [ret, asked]
    · have := ok.right
      rw [hn] at this
      simpa [ret, hn, Comp.resume, Comp.ideal] using this
    · intro d; simp [ret]
  | enterW l =>
    refine ⟨⟨?_, ?_, ?_, ?_⟩, ?_⟩
    · simpa [ret, valueOf] using ok.alive
    · exact Shape.store (.map l)
    · intro d hd
      refine ok.code d ?_
      rw [hst]
      simpa [ret, valueOf, asked, Frame.cell] using hd
    · simpa [ret, valueOf] using ok.right
    · intro d; simp [ret, valueOf, held]

theorem inv_step {α : Type} {n : Nat} {ends : Fin n → α} {debug : Bool} {s s' : State α n} {t : Fin n}
    (h : Inv ends s) (hs : step debug s t = some s') : Inv ends s' := by
  have ok := h.threads t
  have sh := ok.shape
  have enterCase : ∀ (c : Cell) (below : List Frame), (s.threads t).stack = .enter c :: below →
      Shape (.enter c :: below) → Shape (.build c :: below) → asked (.build c :: below) = asked (.enter c :: below) →
      Inv ends s' := by
    intro c below hst hsh hsh' hask
    simp only [step, ok.alive, Bool.false_eq_true, if_false, hst] at hs
    cases hc : s.cells c with
    | complete v =>
      rw [hc] at hs; simp only [Option.some.injEq] at hs
      have hv := h.complete c v hc; subst hv; subst hs
      obtain ⟨a, b⟩ := ret_ok (c := c) ok hst rfl hsh
      exact inv_update h t _ a (by intro d; rw [b d, hst]; simp [held])
    | running => rw [hc] at hs; simp at hs
    | incomplete =>
      rw [hc] at hs
      have hav := (h.avail c).mpr hc
      simp only [hav, if_true, Option.some.injEq] at hs
      subst hs
      refine ⟨?_, ?_, ?_, ?_, ?_, ?_⟩
      · intro d v hd
        by_cases e : d = c
        · subst e; simp at hd
        · simp only [Function.update_of_ne e] at hd; exact h.complete d v hd
      · intro d
        by_cases e : d = c
        · subst e; simp
        · simp only [Function.update_of_ne e]; exact h.avail d
      · intro d
        by_cases e : d = c
        · subst e; simp [h.once d, hav]
        · simp only [Function.update_of_ne e]; exact h.once d
      · intro u
        by_cases e : u = t
        · subst e
          simp only [Function.update_self]
          have ho := ok.code
          rw [hst, ← hask] at ho
          exact ⟨rfl, hsh', ho, ok.right⟩
        · simpa [Function.update_of_ne e] using h.threads u
      · intro d hd
        by_cases e : d = c
        · subst e; exact ⟨t, by simp [held]⟩
        · simp only [Function.update_of_ne e] at hd
          obtain ⟨u, hu⟩ := h.owner d hd
          refine ⟨u, ?_⟩
          by_cases e' : u = t
          · subst e'; rw [hst] at hu; simpa [held] using Or.inr hu
          · simpa [Function.update_of_ne e'] using hu
      · intro u d hd
        by_cases e : d = c
        · subst e; simp
        · simp only [Function.update_of_ne e]
          by_cases e' : u = t
          · subst e'
            refine h.taken u d ?_
            rw [hst]; simpa [held, e] using hd
          · exact h.taken u d (by simpa [Function.update_of_ne e'] using hd)
  have buildList : ∀ (l : Lang) (below : List Frame), (s.threads t).stack = .build (.list l) :: below →
      Shape (.store (.list l) (valueOf (.list l)) :: below) →
      asked (.store (.list l) (valueOf (.list l)) :: below) = asked (.build (.list l) :: below) →
      Inv ends s' := by
    intro l below hst hsh' hask
    obtain ⟨text, ht⟩ := closure_list l
    simp only [step, ok.alive, Bool.false_eq_true, if_false, hst, ht, genWordlistChecked_closure debug l text ht, Option.some.injEq] at hs
    subst hs
    refine inv_update h t _ ⟨rfl, hsh', ?_, ok.right⟩ ?_
    · have ho := ok.code
      rw [hst, ← hask] at ho; exact ho
    · intro d; rw [hst]; simp [held]
  have storeCase : ∀ (c : Cell) (below : List Frame), (s.threads t).stack = .store c (valueOf c) :: below →
      Shape (.enter c :: below) → Inv ends s' := by
    intro c below hst hsh
    simp only [step, ok.alive, Bool.false_eq_true, if_false, hst, Option.some.injEq] at hs
    subst hs
    obtain ⟨a, b⟩ := ret_ok (c := c) ok hst rfl hsh
    have htk : s.closures c = false := h.taken t c (by rw [hst]; simp [held])
    refine ⟨?_, ?_, h.once, ?_, ?_, ?_⟩
    · intro d v hd
      by_cases e : d = c
      · subst e; simpa using hd.symm
      · simp only [Function.update_of_ne e] at hd; exact h.complete d v hd
    · intro d
      by_cases e : d = c
      · subst e; simp [htk]
      · simp only [Function.update_of_ne e]; exact h.avail d
    · intro u
      by_cases e : u = t
      · subst e; simpa using a
      · simpa [Function.update_of_ne e] using h.threads u
    · intro d hd
      by_cases e : d = c
      · subst e; simp at hd
      · simp only [Function.update_of_ne e] at hd
        obtain ⟨u, hu⟩ := h.owner d hd
        refine ⟨u, ?_⟩
        by_cases e' : u = t
        · subst e'
          simp only [Function.update_self]
          rw [b d]; rw [hst] at hu; simpa [held, e] using hu
        · simpa [Function.update_of_ne e'] using hu
    · intro u d hd
      by_cases e' : u = t
      · subst e'
        simp only [Function.update_self] at hd
        exact h.taken u d (by rw [hst]; simpa [held] using Or.inr ((b d).mp hd))
      · exact h.taken u d (by simpa [Function.update_of_ne e'] using hd)
  generalize hst : (s.threads t).stack = st at sh
  cases sh with
  | nil =>
    simp only [step, ok.alive, Bool.false_eq_true, if_false, hst] at hs
    cases htd : (s.threads t).code with
    | done a => rw [htd] at hs; simp at hs
    | force c next =>
      rw [htd] at hs; simp only [Option.some.injEq] at hs
      subst hs
      refine inv_update h t _ ⟨rfl, .enter c, ?_, htd ▸ ok.right⟩ ?_
      · intro d hd
        simp only [asked, List.getLast?_singleton, Option.map_some, Option.toList_some, Frame.cell, List.mem_singleton] at hd
        exact ⟨next, by rw [hd]⟩
      · intro d; rw [hst]; simp [held]
  | enter c => exact enterCase c [] hst (.enter c) (.build c) rfl
  | enterW l => exact enterCase _ _ hst (.enterW l) (.buildW l) rfl
  | build c =>
    cases c with
    | list l => exact buildList l [] hst (.store _) rfl
    | map l =>
      simp only [step, ok.alive, Bool.false_eq_true, if_false, hst, closure_map, Option.some.injEq] at hs
      subst hs
      refine inv_update h t _ ⟨rfl, .enterW l, ?_, ok.right⟩ ?_
      · have ho := ok.code
        rw [hst] at ho
        simpa [asked, Frame.cell] using ho
      · intro d; rw [hst]; simp [held]
  | buildW l => exact buildList l _ hst (.storeW l) rfl
  | store c => exact storeCase c [] hst (.enter c)
  | storeW l => exact storeCase _ _ hst (.enterW l)

theorem inv_run {α : Type} {n : Nat} {ends : Fin n → α} {debug : Bool} {sched : List (Fin n)} :
    ∀ {s s' : State α n}, Inv ends s → run debug s sched = some s' → Inv ends s' := by
  induction sched with
  | nil => intro s s' h hr; simp only [run, Option.some.injEq] at hr; exact hr ▸ h
  | cons t ts ih =>
    intro s s' h hr
    simp only [run] at hr
    split at hr
    · simp at hr
    · rename_i s1 h1
      exact ih (inv_step h h1) hr

/-- A thread on top of whose stack is a cell it is initialising can step. -/
theorem step_top {α : Type} {n : Nat} {ends : Fin n → α} (debug : Bool) {s : State α n} (h : Inv ends s) (t : Fin n)
    (f : Frame) (below : List Frame) (hst : (s.threads t).stack = f :: below)
    (hf : (∃ c, f = .build c) ∨ ∃ c v, f = .store c v) : ∃ s', step debug s t = some s' := by
  rcases hf with ⟨c, rfl⟩ | ⟨c, v, rfl⟩
  · cases c with
    | list l =>
      obtain ⟨text, ht⟩ := closure_list l
      simp [step, (h.threads t).alive, hst, ht, genWordlistChecked_closure debug l text ht]
    | map l => simp [step, (h.threads t).alive, hst, closure_map]
  · simp [step, (h.threads t).alive, hst]

theorem step_enter {α : Type} {n : Nat} {ends : Fin n → α} (debug : Bool) {s : State α n} (h : Inv ends s) (t : Fin n)
    (c : Cell) (below : List Frame) (hst : (s.threads t).stack = .enter c :: below)
    (hc : s.cells c ≠ .running) : ∃ s', step debug s t = some s' := by
  cases hc' : s.cells c with
  | complete v => simp [step, (h.threads t).alive, hst, hc']
  | running => exact absurd hc' hc
  | incomplete => simp [step, (h.threads t).alive, hst, hc', (h.avail c).mpr hc']

/-- If a word list is being initialised, whoever does it can step. -/
theorem step_list {α : Type} {n : Nat} {ends : Fin n → α} (debug : Bool) {s : State α n} (h : Inv ends s) (l : Lang)
    (hc : s.cells (.list l) = .running) : ∃ t s', step debug s t = some s' := by
  obtain ⟨t, ht⟩ := h.owner _ hc
  have sh := (h.threads t).shape
  generalize hst : (s.threads t).stack = st at sh
  rw [hst] at ht
  cases sh with
  | nil => simp [held] at ht
  | enter c => simp [held] at ht
  | build c => exact ⟨t, step_top debug h t _ _ hst (.inl ⟨_, rfl⟩)⟩
  | store c => exact ⟨t, step_top debug h t _ _ hst (.inr ⟨_, _, rfl⟩)⟩
  | enterW l' => simp [held] at ht
  | buildW l' => exact ⟨t, step_top debug h t _ _ hst (.inl ⟨_, rfl⟩)⟩
  | storeW l' => exact ⟨t, step_top debug h t _ _ hst (.inr ⟨_, _, rfl⟩)⟩

/-- No deadlock. -/
theorem progress {α : Type} {n : Nat} {ends : Fin n → α} (debug : Bool) {s : State α n} (h : Inv ends s) (t : Fin n)
    (ht : (s.threads t).stack ≠ [] ∨ ∀ a, (s.threads t).code ≠ .done a) : ∃ u s', step debug s u = some s' := by
  have enterList : ∀ (u : Fin n) (l : Lang) (below : List Frame),
      (s.threads u).stack = .enter (.list l) :: below → ∃ u s', step debug s u = some s' := by
    intro u l below hst
    by_cases hc : s.cells (.list l) = .running
    · exact step_list debug h l hc
    · exact ⟨u, step_enter debug h u _ _ hst hc⟩
  have sh := (h.threads t).shape
  generalize hst : (s.threads t).stack = st at sh
  cases sh with
  | nil =>
    rw [hst] at ht
    refine ⟨t, ?_⟩
    cases htd : (s.threads t).code with
    | done a => simp [htd] at ht
    | force c next => simp [step, (h.threads t).alive, hst, htd]
  | build c => exact ⟨t, step_top debug h t _ _ hst (.inl ⟨_, rfl⟩)⟩
  | store c => exact ⟨t, step_top debug h t _ _ hst (.inr ⟨_, _, rfl⟩)⟩
  | buildW l => exact ⟨t, step_top debug h t _ _ hst (.inl ⟨_, rfl⟩)⟩
  | storeW l => exact ⟨t, step_top debug h t _ _ hst (.inr ⟨_, _, rfl⟩)⟩
  | enterW l => exact enterList t l _ hst
  | enter c =>
    cases c with
    | list l => exact enterList t l _ hst
    | map l =>
      by_cases hc : s.cells (.map l) = .running
      · obtain ⟨u, hu⟩ := h.owner _ hc
        have sh := (h.threads u).shape
        generalize hsu : (s.threads u).stack = su at sh
        rw [hsu] at hu
        cases sh with
        | nil => simp [held] at hu
        | enter c => simp [held] at hu
        | build c => exact ⟨u, step_top debug h u _ _ hsu (.inl ⟨_, rfl⟩)⟩
        | store c => exact ⟨u, step_top debug h u _ _ hsu (.inr ⟨_, _, rfl⟩)⟩
        | buildW l => exact ⟨u, step_top debug h u _ _ hsu (.inl ⟨_, rfl⟩)⟩
        | storeW l => exact ⟨u, step_top debug h u _ _ hsu (.inr ⟨_, _, rfl⟩)⟩
        | enterW l => exact enterList u l _ hsu
      · exact ⟨t, step_enter debug h t _ _ hst hc⟩

/-- Work left in a frame. -/
def weight : Frame → Nat
  | .enter (.list _) => 3
  | .build (.list _) => 2
  | .enter (.map _) => 7
  | .build (.map _) => 6
  | .wait _ => 2
  | .store _ _ => 1

/-- Dereferences that a thread has not begun. -/
def left {α : Type} (th : Thread α) : Nat :=
  match th.stack with
  | [] => th.code.forces
  | _ :: _ => th.code.forces - 1

/-- Work left in a thread. -/
def work {α : Type} (th : Thread α) : Nat := (th.stack.map weight).sum + 8 * left th

theorem work_ret {α : Type} {a : α} {th : Thread α} {c : Cell} {f : Frame} {below : List Frame}
    (ok : ThreadOk a th) (hst : th.stack = f :: below) (hf : f.cell = c) (hs : Shape (.enter c :: below)) :
    work (ret th (valueOf c) below) ≤ (below.map weight).sum + 8 * left th := by
  cases hs with
  | enter c =>
    obtain ⟨next, hn⟩ := ok.code c (by rw [hst]; simp [asked, hf])
    simp [ret, work, left, hst, hn, Comp.resume, Comp.forces]
  | enterW l => simp [ret, valueOf, work, weight, left, hst]

theorem sum_update {α : Type} {n : Nat} (f : Fin n → Thread α) (t : Fin n) (th : Thread α) (h : work th < work (f t)) :
    ∑ u, work (Function.update f t th u) < ∑ u, work (f u) := by
  apply Finset.sum_lt_sum
  · intro u _
    by_cases e : u = t
    · subst e; simpa using h.le
    · simp [Function.update_of_ne e]
  · exact ⟨t, Finset.mem_univ _, by simpa using h⟩

/-- Every step does some of the work. -/
theorem step_work {α : Type} {n : Nat} {ends : Fin n → α} {debug : Bool} {s s' : State α n} {t : Fin n}
    (h : Inv ends s) (hs : step debug s t = some s') :
    ∑ u, work (s'.threads u) < ∑ u, work (s.threads u) := by
  have ok := h.threads t
  have sh := ok.shape
  have enterCase : ∀ (c : Cell) (below : List Frame), (s.threads t).stack = .enter c :: below →
      Shape (.enter c :: below) → ∑ u, work (s'.threads u) < ∑ u, work (s.threads u) := by
    intro c below hst hsh
    have hw : weight (.enter c) = weight (.build c) + 1 := by cases c <;> rfl
    simp only [step, ok.alive, Bool.false_eq_true, if_false, hst] at hs
    cases hc : s.cells c with
    | complete v =>
      rw [hc] at hs; simp only [Option.some.injEq] at hs
      have hv := h.complete c v hc; subst hv; subst hs
      apply sum_update
      refine lt_of_le_of_lt (work_ret ok hst rfl hsh) ?_
      rw [work, hst]
      simp only [List.map_cons, List.sum_cons, hw]
      omega
    | running => rw [hc] at hs; simp at hs
    | incomplete =>
      rw [hc] at hs
      have hav := (h.avail c).mpr hc
      simp only [hav, if_true, Option.some.injEq] at hs
      subst hs
      apply sum_update
      simp only [work, left, hst, List.map_cons, List.sum_cons, hw]
      omega
  have storeCase : ∀ (c : Cell) (below : List Frame), (s.threads t).stack = .store c (valueOf c) :: below →
      Shape (.enter c :: below) → ∑ u, work (s'.threads u) < ∑ u, work (s.threads u) := by
    intro c below hst hsh
    simp only [step, ok.alive, Bool.false_eq_true, if_false, hst, Option.some.injEq] at hs
    subst hs
    apply sum_update
    refine lt_of_le_of_lt (work_ret ok hst rfl hsh) ?_
    rw [work, hst]
    simp only [List.map_cons, List.sum_cons, weight]
    omega
  have buildList : ∀ (l : Lang) (below : List Frame), (s.threads t).stack = .build (.list l) :: below →
      ∑ u, work (s'.threads u) < ∑ u, work (s.threads u) := by
    intro l below hst
    obtain ⟨text, ht⟩ := closure_list l
    simp only [step, ok.alive, Bool.false_eq_true, if_false, hst, ht, genWordlistChecked_closure debug l text ht, Option.some.injEq] at hs
    subst hs
    apply sum_update
    simp only [work, left, hst, List.map_cons, List.sum_cons, weight]
    omega
  generalize hst : (s.threads t).stack = st at sh
  cases sh with
  | nil =>
    simp only [step, ok.alive, Bool.false_eq_true, if_false, hst] at hs
    cases htd : (s.threads t).code with
    | done a => rw [htd] at hs; simp at hs
    | force c next =>
      rw [htd] at hs; simp only [Option.some.injEq] at hs
      subst hs
      apply sum_update
      have hw : weight (.enter c) ≤ 7 := by cases c <;> simp [weight]
      simp only [work, left, hst, htd, List.map_cons, List.map_nil, List.sum_cons, List.sum_nil, Comp.forces]
      omega
  | enter c => exact enterCase c [] hst (.enter c)
  | enterW l => exact enterCase _ _ hst (.enterW l)
  | build c =>
    cases c with
    | list l => exact buildList l [] hst
    | map l =>
      simp only [step, ok.alive, Bool.false_eq_true, if_false, hst, closure_map, Option.some.injEq] at hs
      subst hs
      apply sum_update
      simp [work, left, hst, weight]
  | buildW l => exact buildList l _ hst
  | store c => exact storeCase c [] hst (.enter c)
  | storeW l => exact storeCase _ _ hst (.enterW l)

theorem run_work {α : Type} {n : Nat} {ends : Fin n → α} {debug : Bool} {sched : List (Fin n)} :
    ∀ {s s' : State α n}, Inv ends s → run debug s sched = some s' →
      sched.length + ∑ u, work (s'.threads u) ≤ ∑ u, work (s.threads u) := by
  induction sched with
  | nil => intro s s' _ hr; simp only [run, Option.some.injEq] at hr; subst hr; simp
  | cons t ts ih =>
    intro s s' h hr
    simp only [run] at hr
    split at hr
    · simp at hr
    · rename_i s1 h1
      have a := ih (inv_step h h1) hr
      have b := step_work h h1
      simp only [List.length_cons]
      omega

/-- A built static stays as it is. -/
theorem step_keeps {α : Type} {n : Nat} {ends : Fin n → α} {debug : Bool} {s s' : State α n} {t : Fin n} {c : Cell} {v : Val}
    (h : Inv ends s) (hs : step debug s t = some s') (hc : s.cells c = .complete v) : s'.cells c = .complete v := by
  have h' := inv_step h hs
  have hcl : s.closures c = false := by
    cases e : s.closures c with
    | false => rfl
    | true => rw [(h.avail c).mp e] at hc; simp at hc
  have hv := h.complete c v hc
  suffices ∃ w, s'.cells c = .complete w by
    obtain ⟨w, hw⟩ := this
    rw [hw, h'.complete c w hw, hv]
  have ok := h.threads t
  have sh := ok.shape
  generalize hst : (s.threads t).stack = st at sh
  have enterCase : ∀ (d : Cell) (below : List Frame), (s.threads t).stack = .enter d :: below →
      ∃ w, s'.cells c = .complete w := by
    intro d below hst
    simp only [step, ok.alive, Bool.false_eq_true, if_false, hst] at hs
    cases hd : s.cells d with
    | complete w =>
      rw [hd] at hs; simp only [Option.some.injEq] at hs; subst hs; exact ⟨v, hc⟩
    | running => rw [hd] at hs; simp at hs
    | incomplete =>
      rw [hd] at hs
      have hav := (h.avail d).mpr hd
      simp only [hav, if_true, Option.some.injEq] at hs
      subst hs
      have e : c ≠ d := by rintro rfl; rw [hd] at hc; simp at hc
      exact ⟨v, by simpa [Function.update_of_ne e] using hc⟩
  have buildList : ∀ (l : Lang) (below : List Frame), (s.threads t).stack = .build (.list l) :: below →
      ∃ w, s'.cells c = .complete w := by
    intro l below hst
    obtain ⟨text, ht⟩ := closure_list l
    simp only [step, ok.alive, Bool.false_eq_true, if_false, hst, ht, genWordlistChecked_closure debug l text ht, Option.some.injEq] at hs
    subst hs; exact ⟨v, hc⟩
  have storeCase : ∀ (d : Cell) (w : Val) (below : List Frame), (s.threads t).stack = .store d w :: below →
      ∃ w, s'.cells c = .complete w := by
    intro d w below hst
    simp only [step, ok.alive, Bool.false_eq_true, if_false, hst, Option.some.injEq] at hs
    subst hs
    by_cases e : c = d
    · subst e; exact ⟨w, by simp⟩
    · exact ⟨v, by simpa [Function.update_of_ne e] using hc⟩
  cases sh with
  | nil =>
    simp only [step, ok.alive, Bool.false_eq_true, if_false, hst] at hs
    cases htd : (s.threads t).code with
    | done a => rw [htd] at hs; simp at hs
    | force d next => rw [htd] at hs; simp only [Option.some.injEq] at hs; subst hs; exact ⟨v, hc⟩
  | enter d => exact enterCase _ _ hst
  | enterW l => exact enterCase _ _ hst
  | build d =>
    cases d with
    | list l => exact buildList _ _ hst
    | map l => simp only [step, ok.alive, Bool.false_eq_true, if_false, hst, closure_map, Option.some.injEq] at hs; subst hs; exact ⟨v, hc⟩
  | buildW l => exact buildList _ _ hst
  | store d => exact storeCase _ _ _ hst
  | storeW l => exact storeCase _ _ _ hst

theorem run_keeps {α : Type} {n : Nat} {ends : Fin n → α} {debug : Bool} {sched : List (Fin n)} {c : Cell} {v : Val} :
    ∀ {s s' : State α n}, Inv ends s → run debug s sched = some s' → s.cells c = .complete v →
      s'.cells c = .complete v := by
  induction sched with
  | nil => intro s s' _ hr hc; simp only [run, Option.some.injEq] at hr; exact hr ▸ hc
  | cons t ts ih =>
    intro s s' h hr hc
    simp only [run] at hr
    split at hr
    · simp at hr
    · rename_i s1 h1
      exact ih (inv_step h h1) hr (step_keeps h h1 hc)

end Kms.Bip39.Threads
