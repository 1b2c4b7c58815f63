import Verif.Proofs.Threads
/-
Which statics are built: those that some call needs, and no others.
-/
namespace Kms.Bip39.Threads
open Kms.Bip39.All
open Kms.Bip39.Lazy (Val CellState genWordlistChecked)

/-- What building a static builds: a map is made from its list. -/
def parts : Cell → List Cell
  | .list l => [.list l]
  | .map l => [.map l, .list l]

/-- The statics that code builds if it runs alone. -/
def Comp.needs {α : Type} : Comp α → Cell → Prop
  | .done _, _ => False
  | .force c next, d => d ∈ parts c ∨ (next (valueOf c)).needs d

theorem self_parts (c : Cell) : c ∈ parts c := by cases c <;> simp [parts]

/-- A map is complete, or about to be stored, only after its list has been built. -/
structure ListFirst {α : Type} {n : Nat} (s : State α n) : Prop where
  cell : ∀ l v, s.cells (.map l) = .complete v → s.closures (.list l) = false
  frame : ∀ t l v, Frame.store (.map l) v ∈ (s.threads t).stack → s.closures (.list l) = false

/-- What one step does, as far as building is concerned. -/
structure Moves {α : Type} {n : Nat} (s s' : State α n) (t : Fin n) : Prop where
  others : ∀ u, u ≠ t → s'.threads u = s.threads u
  keeps : ∀ d, s.closures d = false → s'.closures d = false
  takes : ∀ d, s'.closures d = false → s.closures d = false ∨ (s.threads t).code.needs d
  code : (s'.threads t).code = (s.threads t).code ∨
    ∃ c next, (s.threads t).code = .force c next ∧ (s'.threads t).code = next (valueOf c) ∧ ∀ d ∈ parts c, s'.closures d = false

theorem step_moves {α : Type} {n : Nat} {ends : Fin n → α} {debug : Bool} {s s' : State α n} {t : Fin n}
    (h : Inv ends s) (g : ListFirst s) (hs : step debug s t = some s') : Moves s s' t ∧ ListFirst s' := by
  have ok := h.threads t
  have sh := ok.shape
  -- a static that is complete has been built
  have built : ∀ c v, s.cells c = .complete v → s.closures c = false := by
    intro c v hc
    cases e : s.closures c with
    | false => rfl
    | true => rw [(h.avail c).mp e] at hc; simp at hc
  -- the thread's frames and code change, and nothing else
  have quiet : ∀ th : Thread α, s' = { s with threads := Function.update s.threads t th } → th.code = (s.threads t).code →
      (∀ l v, Frame.store (.map l) v ∈ th.stack → s.closures (.list l) = false) → Moves s s' t ∧ ListFirst s' := by
    rintro th rfl hc hf
    refine ⟨⟨fun u hu => by simp [Function.update_of_ne hu], fun _ hd => hd, fun _ hd => .inl hd, .inl (by simpa using hc)⟩, g.cell, ?_⟩
    intro u l v hm
    by_cases e : u = t
    · subst e; exact hf l v (by simpa using hm)
    · exact g.frame u l v (by simpa [Function.update_of_ne e] using hm)
  -- `force(c)` returns
  have returns : ∀ (c : Cell) (f : Frame) (below : List Frame) (cells' : Cell → CellState), (s.threads t).stack = f :: below →
      f.cell = c → Shape (.enter c :: below) → s.closures c = false → (∀ l, c = .map l → s.closures (.list l) = false) →
      (∀ d v, cells' d = .complete v → d = c ∨ s.cells d = .complete v) →
      s' = { s with cells := cells', threads := Function.update s.threads t (ret (s.threads t) (valueOf c) below) } →
      Moves s s' t ∧ ListFirst s' := by
    rintro c f below cells' hst hf hsh hcl hlist hcells rfl
    have hcell : ∀ l v, cells' (.map l) = .complete v → s.closures (.list l) = false := by
      intro l v hv
      rcases hcells _ _ hv with e | e
      · exact hlist l e.symm
      · exact g.cell l v e
    have hparts : ∀ d ∈ parts c, s.closures d = false := by
      intro d hd
      cases c with
      | list l => simp only [parts, List.mem_singleton] at hd; rw [hd]; exact hcl
      | map l =>
        simp only [parts, List.mem_cons, List.not_mem_nil, or_false] at hd
        rcases hd with hd | hd
        · rw [hd]; exact hcl
        · rw [hd]; exact hlist l rfl
    have hothers : ∀ (th : Thread α) u l v, u ≠ t → Frame.store (.map l) v ∈ (Function.update s.threads t th u).stack →
        s.closures (.list l) = false := by
      intro th u l v e hm
      exact g.frame u l v (by simpa [Function.update_of_ne e] using hm)
    cases hsh with
    | enter c =>
      obtain ⟨next, hn⟩ := ok.code c (by rw [hst]; simp [asked, hf])
      refine ⟨⟨fun u hu => by simp [Function.update_of_ne hu], fun _ hd => hd, fun _ hd => .inl hd, .inr ⟨c, next, hn, ?_, hparts⟩⟩, hcell, ?_⟩
      · simp [ret, hn, Comp.resume]
      · intro u l v hm
        by_cases e : u = t
        · subst e; simp [ret] at hm
        · exact hothers _ u l v e hm
    | enterW l' =>
      refine ⟨⟨fun u hu => by simp [Function.update_of_ne hu], fun _ hd => hd, fun _ hd => .inl hd, .inl ?_⟩, hcell, ?_⟩
      · simp [ret, valueOf]
      · intro u l v hm
        by_cases e : u = t
        · subst e
          simp only [ret, valueOf, Function.update_self, List.mem_cons, List.not_mem_nil, or_false, Frame.store.injEq,
            Cell.map.injEq] at hm
          rw [hm.1]; exact hcl
        · exact hothers _ u l v e hm
  have enterCase : ∀ (c : Cell) (below : List Frame), (s.threads t).stack = .enter c :: below →
      Shape (.enter c :: below) → (s.threads t).code.needs c → Moves s s' t ∧ ListFirst s' := by
    intro c below hst hsh hneed
    simp only [step, ok.alive, Bool.false_eq_true, if_false, hst] at hs
    cases hc : s.cells c with
    | complete v =>
      rw [hc] at hs; simp only [Option.some.injEq] at hs
      have hv := h.complete c v hc; subst hv
      exact returns c (.enter c) below s.cells hst rfl hsh (built c _ hc) (fun l e => g.cell l _ (e ▸ hc)) (fun d v e => .inr e) hs.symm
    | running => rw [hc] at hs; simp at hs
    | incomplete =>
      rw [hc] at hs
      have hav := (h.avail c).mpr hc
      simp only [hav, if_true, Option.some.injEq] at hs
      subst hs
      have mono : ∀ d, s.closures d = false → Function.update s.closures c false d = false := by
        intro d hd
        by_cases e : d = c
        · subst e; simp
        · simpa [Function.update_of_ne e] using hd
      refine ⟨⟨fun u hu => by simp [Function.update_of_ne hu], mono, ?_, .inl (by simp)⟩, ?_, ?_⟩
      · intro d hd
        by_cases e : d = c
        · subst e; exact .inr hneed
        · exact .inl (by simpa [Function.update_of_ne e] using hd)
      · intro l v hv
        by_cases e : Cell.map l = c
        · subst e; simp at hv
        · exact mono _ (g.cell l v (by simpa [Function.update_of_ne e] using hv))
      · intro u l v hm
        by_cases e : u = t
        · subst e
          simp only [Function.update_self, List.mem_cons, reduceCtorEq, false_or] at hm
          exact mono _ (g.frame u l v (by rw [hst]; simp [hm]))
        · exact mono _ (g.frame u l v (by simpa [Function.update_of_ne e] using hm))
  have buildList : ∀ (l : Lang) (below : List Frame), (s.threads t).stack = .build (.list l) :: below →
      Moves s s' t ∧ ListFirst s' := by
    intro l below hst
    obtain ⟨text, ht⟩ := closure_list l
    simp only [step, ok.alive, Bool.false_eq_true, if_false, hst, ht, genWordlistChecked_closure debug l text ht, Option.some.injEq] at hs
    refine quiet _ hs.symm rfl ?_
    intro l v hm
    simp only [List.mem_cons, Frame.store.injEq, reduceCtorEq, false_and, false_or] at hm
    exact g.frame t l v (by rw [hst]; simp [hm])
  have storeCase : ∀ (c : Cell) (below : List Frame), (s.threads t).stack = .store c (valueOf c) :: below →
      Shape (.enter c :: below) → Moves s s' t ∧ ListFirst s' := by
    intro c below hst hsh
    simp only [step, ok.alive, Bool.false_eq_true, if_false, hst, Option.some.injEq] at hs
    refine returns c (.store c (valueOf c)) below _ hst rfl hsh (h.taken t c (by rw [hst]; simp [held]))
      (fun l e => g.frame t l (valueOf c) (by rw [hst, e]; simp)) ?_ hs.symm
    intro d v hd
    by_cases e : d = c
    · exact .inl e
    · exact .inr (by simpa [Function.update_of_ne e] using hd)
  have needAsked : ∀ c d, c ∈ asked (s.threads t).stack → d ∈ parts c → (s.threads t).code.needs d := by
    intro c d hc hd
    obtain ⟨next, hn⟩ := ok.code c hc
    rw [hn]
    exact .inl hd
  generalize hst : (s.threads t).stack = st at sh
  cases sh with
  | nil =>
    simp only [step, ok.alive, Bool.false_eq_true, if_false, hst] at hs
    cases htd : (s.threads t).code with
    | done a => rw [htd] at hs; simp at hs
    | force c next =>
      rw [htd] at hs; simp only [Option.some.injEq] at hs
      exact quiet _ hs.symm htd.symm (by simp)
  | enter c => exact enterCase c [] hst (.enter c) (needAsked c c (by rw [hst]; simp [asked, Frame.cell]) (self_parts c))
  | enterW l => exact enterCase _ _ hst (.enterW l) (needAsked (.map l) (.list l) (by rw [hst]; simp [asked, Frame.cell]) (by simp [parts]))
  | build c =>
    cases c with
    | list l => exact buildList l [] hst
    | map l =>
      simp only [step, ok.alive, Bool.false_eq_true, if_false, hst, closure_map, Option.some.injEq] at hs
      exact quiet _ hs.symm rfl (by simp)
  | buildW l => exact buildList l _ hst
  | store c => exact storeCase c [] hst (.enter c)
  | storeW l => exact storeCase _ _ hst (.enterW l)

/-- What the threads were to build when they started, what they have still to build, and what has been built. -/
structure Built {α : Type} {n : Nat} (orig : Fin n → Cell → Prop) (s : State α n) : Prop where
  some_needs : ∀ c, s.closures c = false → ∃ t, orig t c
  within : ∀ t d, (s.threads t).code.needs d → orig t d
  left : ∀ t d, orig t d → (s.threads t).code.needs d ∨ s.closures d = false

theorem built_run {α : Type} {n : Nat} {ends : Fin n → α} {debug : Bool} {orig : Fin n → Cell → Prop} {sched : List (Fin n)} :
    ∀ {s s' : State α n}, Inv ends s → ListFirst s → Built orig s → run debug s sched = some s' → Built orig s' := by
  induction sched with
  | nil => intro s s' _ _ b hr; simp only [run, Option.some.injEq] at hr; exact hr ▸ b
  | cons t ts ih =>
    intro s s' h g b hr
    simp only [run] at hr
    split at hr
    · simp at hr
    · rename_i s1 h1
      obtain ⟨m, g1⟩ := step_moves h g h1
      refine ih (inv_step h h1) g1 ⟨?_, ?_, ?_⟩ hr
      · intro c hc
        rcases m.takes c hc with hc | hc
        · exact b.some_needs c hc
        · exact ⟨t, b.within t c hc⟩
      · intro u d hd
        by_cases e : u = t
        · subst e
          rcases m.code with hc | ⟨c, next, hc, hc', _⟩
          · exact b.within u d (hc ▸ hd)
          · refine b.within u d ?_
            rw [hc]
            exact .inr (hc' ▸ hd)
        · exact b.within u d (m.others u e ▸ hd)
      · intro u d hd
        by_cases e : u = t
        · subst e
          rcases b.left u d hd with hl | hl
          · rcases m.code with hc | ⟨c, next, hc, hc', hp⟩
            · exact .inl (hc ▸ hl)
            · rw [hc] at hl
              rcases hl with hl | hl
              · exact .inr (hp d hl)
              · exact .inl (hc' ▸ hl)
          · exact .inr (m.keeps d hl)
        · rcases b.left u d hd with hl | hl
          · exact .inl ((m.others u e).symm ▸ hl)
          · exact .inr (m.keeps d hl)

theorem built_start {α : Type} {n : Nat} (progs : Fin n → Comp α) :
    ListFirst (start progs) ∧ Built (fun t => (progs t).needs) (start progs) := by
  refine ⟨⟨?_, ?_⟩, ⟨?_, ?_, ?_⟩⟩
  · intro l v h; simp [start] at h
  · intro t l v h; simp [start] at h
  · intro c h; simp [start] at h
  · intro t d h; exact h
  · intro t d h; exact .inl h

end Kms.Bip39.Threads
