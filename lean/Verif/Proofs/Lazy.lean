import Verif.Model.Lazy
import Verif.Proofs.Language
import Mathlib.Algebra.BigOperators.Fin
import Mathlib.Algebra.Order.BigOperators.Group.Finset
/-
The invariant of the lazily built word lists under every schedule, progress, and the bound on the number of steps.
-/
namespace Kms.Bip39.Lazy
open Kms.Bip39.Language

/-- The value every thread should obtain from a static. -/
def valueOf : Cell → Val
  | .list l => .list (wordlist l)
  | .map l => .map (wordmap l)

/-- The stacks that occur. -/
inductive Shape : List Frame → Prop
  | nil : Shape []
  | enter (c : Cell) : Shape [.enter c]
  | build (c : Cell) : Shape [.build c]
  | store (c : Cell) : Shape [.store c (valueOf c)]
  | enterW (l : Language) : Shape [.enter (.list l), .wait (.map l)]
  | buildW (l : Language) : Shape [.build (.list l), .wait (.map l)]
  | storeW (l : Language) : Shape [.store (.list l) (valueOf (.list l)), .wait (.map l)]

/-- The cell a frame is about. -/
def Frame.cell : Frame → Cell
  | .enter c => c
  | .build c => c
  | .wait c => c
  | .store c _ => c

/-- The request being served: the outermost frame. -/
def asked (st : List Frame) : List Cell := (st.getLast?.map Frame.cell).toList

structure ThreadOk (prog : List Cell) (th : Thread) : Prop where
  alive : th.dead = false
  shape : Shape th.stack
  order : th.got.map Prod.fst ++ asked th.stack ++ th.todo = prog
  right : ∀ p ∈ th.got, p.2 = valueOf p.1

structure Inv {n : Nat} (progs : Fin n → List Cell) (s : State n) : Prop where
  complete : ∀ c v, s.cells c = .complete v → v = valueOf c
  avail : ∀ c, s.closures c = true ↔ s.cells c = .incomplete
  once : ∀ c, s.builds c = if s.closures c then 0 else 1
  threads : ∀ t, ThreadOk (progs t) (s.threads t)
  owner : ∀ c, s.cells c = .running → ∃ t, c ∈ held (s.threads t).stack
  taken : ∀ t, ∀ c ∈ held (s.threads t).stack, s.closures c = false

theorem inv_start {n : Nat} (progs : Fin n → List Cell) : Inv progs (start progs) := by
  refine ⟨?_, ?_, ?_, ?_, ?_, ?_⟩
  · intro c v h; simp [start] at h
  · intro c; simp [start]
  · intro c; simp [start]
  · intro t; exact ⟨rfl, .nil, by simp [start, asked], by simp [start]⟩
  · intro c h; simp [start] at h
  · intro t c h; simp [start, held] at h

theorem genWordlistChecked_closure (debug : Bool) (l : Language) (text : Str)
    (h : closure (.list l) = .genList text) : genWordlistChecked debug text = some (wordlist l) := by
  have e : genWordlist text = wordlist l := by
    cases l <;> (simp only [closure, Init.genList.injEq] at h; subst h; rfl)
  have hl := wordlist_length l
  simp [genWordlistChecked, e, hl]

theorem closure_list (l : Language) : ∃ text, closure (.list l) = .genList text := by
  cases l <;> exact ⟨_, rfl⟩

theorem closure_map (l : Language) : closure (.map l) = .genMap (.list l) := by
  cases l <;> rfl

/-- Changing only thread `t`, to one that holds the same cells. -/
theorem inv_update {n : Nat} {progs : Fin n → List Cell} {s : State n} (h : Inv progs s) (t : Fin n) (th : Thread)
    (ok : ThreadOk (progs t) th) (hh : ∀ c, c ∈ held th.stack ↔ c ∈ held (s.threads t).stack) :
    Inv progs { s with threads := Function.update s.threads t th } := by
  refine ⟨h.complete, h.avail, h.once, ?_, ?_, ?_⟩
  · intro u
    by_cases e : u = t
    · subst e; simpa using ok
    · simpa [Function.update_of_ne e] using h.threads u
  · intro c hc
    obtain ⟨u, hu⟩ := h.owner c hc
    by_cases e : u = t
    · subst e; exact ⟨u, by simpa using (hh c).mpr hu⟩
    · exact ⟨u, by simpa [Function.update_of_ne e] using hu⟩
  · intro u c hc
    by_cases e : u = t
    · subst e; exact h.taken u c ((hh c).mp (by simpa using hc))
    · exact h.taken u c (by simpa [Function.update_of_ne e] using hc)

/-- What the thread looks like after `force(c)` has returned. -/
theorem ret_ok {prog : List Cell} {th : Thread} {c : Cell} {f : Frame} {below : List Frame}
    (ok : ThreadOk prog th) (hst : th.stack = f :: below) (hf : f.cell = c)
    (hs : Shape (.enter c :: below)) :
    ThreadOk prog (ret th c (valueOf c) below) ∧
    (∀ d, d ∈ held (ret th c (valueOf c) below).stack ↔ d ∈ held below) := by
  cases hs with
  | enter c =>
    have ho := ok.order
    rw [hst] at ho
    simp only [asked, List.getLast?_singleton, Option.map_some, Option.toList_some, hf] at ho
    refine ⟨⟨?_, ?_, ?_, ?_⟩, ?_⟩
    · simpa [ret] using ok.alive
    · simpa [ret] using Shape.nil
    · simpa [ret, asked] using ho
    · intro p hp
      simp only [ret, List.mem_append, List.mem_singleton] at hp
      rcases hp with hp | rfl
      · exact ok.right p hp
      · rfl
    · intro d; simp [ret]
  | enterW l =>
    have ho := ok.order
    rw [hst] at ho
    simp only [asked, List.getLast?_cons_cons, List.getLast?_singleton, Option.map_some, Option.toList_some,
      Frame.cell] at ho
    refine ⟨⟨?_, ?_, ?_, ?_⟩, ?_⟩
    · simpa [ret, valueOf] using ok.alive
    · exact Shape.store (.map l)
    · simpa [ret, valueOf, asked, Frame.cell] using ho
    · simpa [ret, valueOf] using ok.right
    · intro d; simp [ret, valueOf, held]

theorem inv_step {n : Nat} {progs : Fin n → List Cell} {debug : Bool} {s s' : State n} {t : Fin n}
    (h : Inv progs s) (hs : step debug s t = some s') : Inv progs s' := by
  have ok := h.threads t
  have sh := ok.shape
  have enterCase : ∀ (c : Cell) (below : List Frame), (s.threads t).stack = .enter c :: below →
      Shape (.enter c :: below) → Shape (.build c :: below) → asked (.build c :: below) = asked (.enter c :: below) →
      Inv progs s' := by
    intro c below hst hsh hsh' hask
    simp only [step, hst] at hs
    cases hc : s.cells c with
    | complete v =>
      rw [hc] at hs; simp only [Option.some.injEq] at hs
      have hv := h.complete c v hc; subst hv; subst hs
      obtain ⟨a, b⟩ := ret_ok (c := c) ok hst rfl hsh
      exact inv_update h t _ a (by intro d; rw [b d, hst]; simp [held])
    | running => rw [hc] at hs; simp at hs
    | incomplete =>
      rw [hc] at hs
      have hav := (h.avail c).mpr hc
      simp only [hav, if_true, Option.some.injEq] at hs
      subst hs
      refine ⟨?_, ?_, ?_, ?_, ?_, ?_⟩
      · intro d v hd
        by_cases e : d = c
        · subst e; simp at hd
        · simp only [Function.update_of_ne e] at hd; exact h.complete d v hd
      · intro d
        by_cases e : d = c
        · subst e; simp
        · simp only [Function.update_of_ne e]; exact h.avail d
      · intro d
        by_cases e : d = c
        · subst e; simp [h.once d, hav]
        · simp only [Function.update_of_ne e]; exact h.once d
      · intro u
        by_cases e : u = t
        · subst e
          simp only [Function.update_self]
          have ho := ok.order
          rw [hst, ← hask] at ho
          exact ⟨ok.alive, hsh', ho, ok.right⟩
        · simpa [Function.update_of_ne e] using h.threads u
      · intro d hd
        by_cases e : d = c
        · subst e; exact ⟨t, by simp [held]⟩
        · simp only [Function.update_of_ne e] at hd
          obtain ⟨u, hu⟩ := h.owner d hd
          refine ⟨u, ?_⟩
          by_cases e' : u = t
          · subst e'; rw [hst] at hu; simpa [held] using Or.inr hu
          · simpa [Function.update_of_ne e'] using hu
      · intro u d hd
        by_cases e : d = c
        · subst e; simp
        · simp only [Function.update_of_ne e]
          by_cases e' : u = t
          · subst e'
            refine h.taken u d ?_
            rw [hst]; simpa [held, e] using hd
          · exact h.taken u d (by simpa [Function.update_of_ne e'] using hd)
  have buildList : ∀ (l : Language) (below : List Frame), (s.threads t).stack = .build (.list l) :: below →
      Shape (.store (.list l) (valueOf (.list l)) :: below) →
      asked (.store (.list l) (valueOf (.list l)) :: below) = asked (.build (.list l) :: below) →
      Inv progs s' := by
    intro l below hst hsh' hask
    obtain ⟨text, ht⟩ := closure_list l
    simp only [step, hst, ht, genWordlistChecked_closure debug l text ht, Option.some.injEq] at hs
    subst hs
    refine inv_update h t _ ⟨ok.alive, hsh', ?_, ok.right⟩ ?_
    · have ho := ok.order
      rw [hst, ← hask] at ho; exact ho
    · intro d; rw [hst]; simp [held]
  have storeCase : ∀ (c : Cell) (below : List Frame), (s.threads t).stack = .store c (valueOf c) :: below →
      Shape (.enter c :: below) → Inv progs s' := by
    intro c below hst hsh
    simp only [step, hst, Option.some.injEq] at hs
    subst hs
    obtain ⟨a, b⟩ := ret_ok (c := c) ok hst rfl hsh
    have htk : s.closures c = false := h.taken t c (by rw [hst]; simp [held])
    refine ⟨?_, ?_, h.once, ?_, ?_, ?_⟩
    · intro d v hd
      by_cases e : d = c
      · subst e; simpa using hd.symm
      · simp only [Function.update_of_ne e] at hd; exact h.complete d v hd
    · intro d
      by_cases e : d = c
      · subst e; simp [htk]
      · simp only [Function.update_of_ne e]; exact h.avail d
    · intro u
      by_cases e : u = t
      · subst e; simpa using a
      · simpa [Function.update_of_ne e] using h.threads u
    · intro d hd
      by_cases e : d = c
      · subst e; simp at hd
      · simp only [Function.update_of_ne e] at hd
        obtain ⟨u, hu⟩ := h.owner d hd
        refine ⟨u, ?_⟩
        by_cases e' : u = t
        · subst e'
          simp only [Function.update_self]
          rw [b d]; rw [hst] at hu; simpa [held, e] using hu
        · simpa [Function.update_of_ne e'] using hu
    · intro u d hd
      by_cases e' : u = t
      · subst e'
        simp only [Function.update_self] at hd
        exact h.taken u d (by rw [hst]; simpa [held] using Or.inr ((b d).mp hd))
      · exact h.taken u d (by simpa [Function.update_of_ne e'] using hd)
  generalize hst : (s.threads t).stack = st at sh
  cases sh with
  | nil =>
    simp only [step, hst] at hs
    cases htd : (s.threads t).todo with
    | nil => rw [htd] at hs; simp at hs
    | cons c cs =>
      rw [htd] at hs; simp only [Option.some.injEq] at hs
      subst hs
      refine inv_update h t _ ⟨ok.alive, .enter c, ?_, ok.right⟩ ?_
      · have ho := ok.order
        rw [hst, htd] at ho
        simpa [asked, Frame.cell] using ho
      · intro d; rw [hst]; simp [held]
  | enter c => exact enterCase c [] hst (.enter c) (.build c) rfl
  | enterW l => exact enterCase _ _ hst (.enterW l) (.buildW l) rfl
  | build c =>
    cases c with
    | list l => exact buildList l [] hst (.store _) rfl
    | map l =>
      simp only [step, hst, closure_map, Option.some.injEq] at hs
      subst hs
      refine inv_update h t _ ⟨ok.alive, .enterW l, ?_, ok.right⟩ ?_
      · have ho := ok.order
        rw [hst] at ho
        simpa [asked, Frame.cell] using ho
      · intro d; rw [hst]; simp [held]
  | buildW l => exact buildList l _ hst (.storeW l) rfl
  | store c => exact storeCase c [] hst (.enter c)
  | storeW l => exact storeCase _ _ hst (.enterW l)

theorem inv_run {n : Nat} {progs : Fin n → List Cell} {debug : Bool} {sched : List (Fin n)} :
    ∀ {s s' : State n}, Inv progs s → run debug s sched = some s' → Inv progs s' := by
  induction sched with
  | nil => intro s s' h hr; simp only [run, Option.some.injEq] at hr; exact hr ▸ h
  | cons t ts ih =>
    intro s s' h hr
    simp only [run] at hr
    split at hr
    · simp at hr
    · rename_i s1 h1
      exact ih (inv_step h h1) hr

/-- A thread on top of whose stack is a cell it is initialising can step. -/
theorem step_top {n : Nat} (debug : Bool) {s : State n} (t : Fin n)
    (f : Frame) (below : List Frame) (hst : (s.threads t).stack = f :: below)
    (hf : (∃ c, f = .build c) ∨ ∃ c v, f = .store c v) : ∃ s', step debug s t = some s' := by
  rcases hf with ⟨c, rfl⟩ | ⟨c, v, rfl⟩
  · cases c with
    | list l =>
      obtain ⟨text, ht⟩ := closure_list l
      simp [step, hst, ht, genWordlistChecked_closure debug l text ht]
    | map l => simp [step, hst, closure_map]
  · simp [step, hst]

theorem step_enter {n : Nat} {progs : Fin n → List Cell} (debug : Bool) {s : State n} (h : Inv progs s) (t : Fin n)
    (c : Cell) (below : List Frame) (hst : (s.threads t).stack = .enter c :: below)
    (hc : s.cells c ≠ .running) : ∃ s', step debug s t = some s' := by
  cases hc' : s.cells c with
  | complete v => simp [step, hst, hc']
  | running => exact absurd hc' hc
  | incomplete => simp [step, hst, hc', (h.avail c).mpr hc']

/-- If a word list is being initialised, whoever does it can step. -/
theorem step_list {n : Nat} {progs : Fin n → List Cell} (debug : Bool) {s : State n} (h : Inv progs s) (l : Language)
    (hc : s.cells (.list l) = .running) : ∃ t s', step debug s t = some s' := by
  obtain ⟨t, ht⟩ := h.owner _ hc
  have sh := (h.threads t).shape
  generalize hst : (s.threads t).stack = st at sh
  rw [hst] at ht
  cases sh with
  | nil => simp [held] at ht
  | enter c => simp [held] at ht
  | build c => exact ⟨t, step_top debug t _ _ hst (.inl ⟨_, rfl⟩)⟩
  | store c => exact ⟨t, step_top debug t _ _ hst (.inr ⟨_, _, rfl⟩)⟩
  | enterW l' => simp [held] at ht
  | buildW l' => exact ⟨t, step_top debug t _ _ hst (.inl ⟨_, rfl⟩)⟩
  | storeW l' => exact ⟨t, step_top debug t _ _ hst (.inr ⟨_, _, rfl⟩)⟩

/-- No deadlock. -/
theorem progress {n : Nat} {progs : Fin n → List Cell} (debug : Bool) {s : State n} (h : Inv progs s) (t : Fin n)
    (ht : (s.threads t).stack ≠ [] ∨ (s.threads t).todo ≠ []) : ∃ u s', step debug s u = some s' := by
  have enterList : ∀ (u : Fin n) (l : Language) (below : List Frame),
      (s.threads u).stack = .enter (.list l) :: below → ∃ u s', step debug s u = some s' := by
    intro u l below hst
    by_cases hc : s.cells (.list l) = .running
    · exact step_list debug h l hc
    · exact ⟨u, step_enter debug h u _ _ hst hc⟩
  have sh := (h.threads t).shape
  generalize hst : (s.threads t).stack = st at sh
  cases sh with
  | nil =>
    rw [hst] at ht
    refine ⟨t, ?_⟩
    cases htd : (s.threads t).todo with
    | nil => simp [htd] at ht
    | cons c cs => simp [step, hst, htd]
  | build c => exact ⟨t, step_top debug t _ _ hst (.inl ⟨_, rfl⟩)⟩
  | store c => exact ⟨t, step_top debug t _ _ hst (.inr ⟨_, _, rfl⟩)⟩
  | buildW l => exact ⟨t, step_top debug t _ _ hst (.inl ⟨_, rfl⟩)⟩
  | storeW l => exact ⟨t, step_top debug t _ _ hst (.inr ⟨_, _, rfl⟩)⟩
  | enterW l => exact enterList t l _ hst
  | enter c =>
    cases c with
    | list l => exact enterList t l _ hst
    | map l =>
      by_cases hc : s.cells (.map l) = .running
      · obtain ⟨u, hu⟩ := h.owner _ hc
        have sh := (h.threads u).shape
        generalize hsu : (s.threads u).stack = su at sh
        rw [hsu] at hu
        cases sh with
        | nil => simp [held] at hu
        | enter c => simp [held] at hu
        | build c => exact ⟨u, step_top debug u _ _ hsu (.inl ⟨_, rfl⟩)⟩
        | store c => exact ⟨u, step_top debug u _ _ hsu (.inr ⟨_, _, rfl⟩)⟩
        | buildW l => exact ⟨u, step_top debug u _ _ hsu (.inl ⟨_, rfl⟩)⟩
        | storeW l => exact ⟨u, step_top debug u _ _ hsu (.inr ⟨_, _, rfl⟩)⟩
        | enterW l => exact enterList u l _ hsu
      · exact ⟨t, step_enter debug h t _ _ hst hc⟩

/-- Work left in a frame. -/
def weight : Frame → Nat
  | .enter (.list _) => 3
  | .build (.list _) => 2
  | .enter (.map _) => 7
  | .build (.map _) => 6
  | .wait _ => 2
  | .store _ _ => 1

/-- Work left in a thread. -/
def work (th : Thread) : Nat := (th.stack.map weight).sum + 8 * th.todo.length

theorem work_ret (th : Thread) (c : Cell) (below : List Frame) (hs : Shape (.enter c :: below)) :
    work (ret th c (valueOf c) below) ≤ (below.map weight).sum + 8 * th.todo.length := by
  cases hs with
  | enter c => simp [ret, work]
  | enterW l => simp [ret, valueOf, work, weight]

theorem sum_update {n : Nat} (f : Fin n → Thread) (t : Fin n) (th : Thread) (h : work th < work (f t)) :
    ∑ u, work (Function.update f t th u) < ∑ u, work (f u) := by
  apply Finset.sum_lt_sum
  · intro u _
    by_cases e : u = t
    · subst e; simpa using h.le
    · simp [Function.update_of_ne e]
  · exact ⟨t, Finset.mem_univ _, by simpa using h⟩

/-- Every step does some of the work. -/
theorem step_work {n : Nat} {progs : Fin n → List Cell} {debug : Bool} {s s' : State n} {t : Fin n}
    (h : Inv progs s) (hs : step debug s t = some s') :
    ∑ u, work (s'.threads u) < ∑ u, work (s.threads u) := by
  have ok := h.threads t
  have sh := ok.shape
  have enterCase : ∀ (c : Cell) (below : List Frame), (s.threads t).stack = .enter c :: below →
      Shape (.enter c :: below) → ∑ u, work (s'.threads u) < ∑ u, work (s.threads u) := by
    intro c below hst hsh
    have hw : weight (.enter c) = weight (.build c) + 1 := by cases c <;> rfl
    simp only [step, hst] at hs
    cases hc : s.cells c with
    | complete v =>
      rw [hc] at hs; simp only [Option.some.injEq] at hs
      have hv := h.complete c v hc; subst hv; subst hs
      apply sum_update
      refine lt_of_le_of_lt (work_ret _ c below hsh) ?_
      rw [work, hst]
      simp only [List.map_cons, List.sum_cons, hw]
      omega
    | running => rw [hc] at hs; simp at hs
    | incomplete =>
      rw [hc] at hs
      have hav := (h.avail c).mpr hc
      simp only [hav, if_true, Option.some.injEq] at hs
      subst hs
      apply sum_update
      simp only [work, hst, List.map_cons, List.sum_cons, hw]
      omega
  have storeCase : ∀ (c : Cell) (below : List Frame), (s.threads t).stack = .store c (valueOf c) :: below →
      Shape (.enter c :: below) → ∑ u, work (s'.threads u) < ∑ u, work (s.threads u) := by
    intro c below hst hsh
    simp only [step, hst, Option.some.injEq] at hs
    subst hs
    apply sum_update
    refine lt_of_le_of_lt (work_ret _ c below hsh) ?_
    rw [work, hst]
    simp only [List.map_cons, List.sum_cons, weight]
    omega
  have buildList : ∀ (l : Language) (below : List Frame), (s.threads t).stack = .build (.list l) :: below →
      ∑ u, work (s'.threads u) < ∑ u, work (s.threads u) := by
    intro l below hst
    obtain ⟨text, ht⟩ := closure_list l
    simp only [step, hst, ht, genWordlistChecked_closure debug l text ht, Option.some.injEq] at hs
    subst hs
    apply sum_update
    simp only [work, hst, List.map_cons, List.sum_cons, weight]
    omega
  generalize hst : (s.threads t).stack = st at sh
  cases sh with
  | nil =>
    simp only [step, hst] at hs
    cases htd : (s.threads t).todo with
    | nil => rw [htd] at hs; simp at hs
    | cons c cs =>
      rw [htd] at hs; simp only [Option.some.injEq] at hs
      subst hs
      apply sum_update
      have hw : weight (.enter c) ≤ 7 := by cases c <;> simp [weight]
      simp only [work, hst, htd, List.map_cons, List.map_nil, List.sum_cons, List.sum_nil, List.length_cons]
      omega
  | enter c => exact enterCase c [] hst (.enter c)
  | enterW l => exact enterCase _ _ hst (.enterW l)
  | build c =>
    cases c with
    | list l => exact buildList l [] hst
    | map l =>
      simp only [step, hst, closure_map, Option.some.injEq] at hs
      subst hs
      apply sum_update
      simp [work, hst, weight]
  | buildW l => exact buildList l _ hst
  | store c => exact storeCase c [] hst (.enter c)
  | storeW l => exact storeCase _ _ hst (.enterW l)

theorem run_work {n : Nat} {progs : Fin n → List Cell} {debug : Bool} {sched : List (Fin n)} :
    ∀ {s s' : State n}, Inv progs s → run debug s sched = some s' →
      sched.length + ∑ u, work (s'.threads u) ≤ ∑ u, work (s.threads u) := by
  induction sched with
  | nil => intro s s' _ hr; simp only [run, Option.some.injEq] at hr; subst hr; simp
  | cons t ts ih =>
    intro s s' h hr
    simp only [run] at hr
    split at hr
    · simp at hr
    · rename_i s1 h1
      have a := ih (inv_step h h1) hr
      have b := step_work h h1
      simp only [List.length_cons]
      omega

/-- A built static stays as it is. -/
theorem step_keeps {n : Nat} {progs : Fin n → List Cell} {debug : Bool} {s s' : State n} {t : Fin n} {c : Cell} {v : Val}
    (h : Inv progs s) (hs : step debug s t = some s') (hc : s.cells c = .complete v) : s'.cells c = .complete v := by
  have h' := inv_step h hs
  have hcl : s.closures c = false := by
    cases e : s.closures c with
    | false => rfl
    | true => rw [(h.avail c).mp e] at hc; simp at hc
  have hv := h.complete c v hc
  suffices ∃ w, s'.cells c = .complete w by
    obtain ⟨w, hw⟩ := this
    rw [hw, h'.complete c w hw, hv]
  have sh := (h.threads t).shape
  generalize hst : (s.threads t).stack = st at sh
  have enterCase : ∀ (d : Cell) (below : List Frame), (s.threads t).stack = .enter d :: below →
      ∃ w, s'.cells c = .complete w := by
    intro d below hst
    simp only [step, hst] at hs
    cases hd : s.cells d with
    | complete w =>
      rw [hd] at hs; simp only [Option.some.injEq] at hs; subst hs; exact ⟨v, hc⟩
    | running => rw [hd] at hs; simp at hs
    | incomplete =>
      rw [hd] at hs
      have hav := (h.avail d).mpr hd
      simp only [hav, if_true, Option.some.injEq] at hs
      subst hs
      have e : c ≠ d := by rintro rfl; rw [hd] at hc; simp at hc
      exact ⟨v, by simpa [Function.update_of_ne e] using hc⟩
  have buildList : ∀ (l : Language) (below : List Frame), (s.threads t).stack = .build (.list l) :: below →
      ∃ w, s'.cells c = .complete w := by
    intro l below hst
    obtain ⟨text, ht⟩ := closure_list l
    simp only [step, hst, ht, genWordlistChecked_closure debug l text ht, Option.some.injEq] at hs
    subst hs; exact ⟨v, hc⟩
  have storeCase : ∀ (d : Cell) (w : Val) (below : List Frame), (s.threads t).stack = .store d w :: below →
      ∃ w, s'.cells c = .complete w := by
    intro d w below hst
    simp only [step, hst, Option.some.injEq] at hs
    subst hs
    by_cases e : c = d
    · subst e; exact ⟨w, by simp⟩
    · exact ⟨v, by simpa [Function.update_of_ne e] using hc⟩
  cases sh with
  | nil =>
    simp only [step, hst] at hs
    cases htd : (s.threads t).todo with
    | nil => rw [htd] at hs; simp at hs
    | cons d ds => rw [htd] at hs; simp only [Option.some.injEq] at hs; subst hs; exact ⟨v, hc⟩
  | enter d => exact enterCase _ _ hst
  | enterW l => exact enterCase _ _ hst
  | build d =>
    cases d with
    | list l => exact buildList _ _ hst
    | map l => simp only [step, hst, closure_map, Option.some.injEq] at hs; subst hs; exact ⟨v, hc⟩
  | buildW l => exact buildList _ _ hst
  | store d => exact storeCase _ _ _ hst
  | storeW l => exact storeCase _ _ _ hst

theorem run_keeps {n : Nat} {progs : Fin n → List Cell} {debug : Bool} {sched : List (Fin n)} {c : Cell} {v : Val} :
    ∀ {s s' : State n}, Inv progs s → run debug s sched = some s' → s.cells c = .complete v →
      s'.cells c = .complete v := by
  induction sched with
  | nil => intro s s' _ hr hc; simp only [run, Option.some.injEq] at hr; exact hr ▸ hc
  | cons t ts ih =>
    intro s s' h hr hc
    simp only [run] at hr
    split at hr
    · simp at hr
    · rename_i s1 h1
      exact ih (inv_step h h1) hr (step_keeps h h1 hc)

end Kms.Bip39.Lazy
