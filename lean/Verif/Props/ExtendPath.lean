import Verif.Model.ExtendPath
/-
C114: what a path holds after `extend` with a caller's own iterator.
-/
namespace Kms.Props
open Kms.Bip32

/-- The numbers an iterator gave, in order. -/
def numbersGiven : List Asked → List ChildNumber
  | [] => []
  | .next (.ok (some c)) :: t => c :: numbersGiven t
  | _ :: t => numbersGiven t

/-- How often `next` was called. -/
def nextCalls : List Asked → Nat
  | [] => 0
  | .next _ :: t => nextCalls t + 1
  | .sizeHint _ :: t => nextCalls t

/-- `t` is what the iterator answers from state `s`, question by question, and `s'` is its state afterwards. -/
inductive IterAnswers {σ : Type} (I : ChildIter σ) : σ → List Asked → σ → Prop
  | nil (s) : IterAnswers I s [] s
  | next {s t s'} : IterAnswers I (I.next s).2 t s' → IterAnswers I s (.next (I.next s).1 :: t) s'
  | sizeHint {s t s'} : IterAnswers I (I.sizeHint s).2 t s' → IterAnswers I s (.sizeHint (I.sizeHint s).1 :: t) s'

theorem extendFrom_answers {σ : Type} (I : ChildIter σ) (v : VecGrowth) (calls : Nat) (p : DerivationPath) (s : σ) :
    IterAnswers I s (p.extendFrom I v calls s).2.2.2 (p.extendFrom I v calls s).2.2.1 := by
  induction calls generalizing p s with
  | zero => exact .nil s
  | succ k ih =>
    have hn : ∀ a s', I.next s = (a, s') → ∀ t s'', IterAnswers I s' t s'' → IterAnswers I s (.next a :: t) s'' := by
      intro a s' h t s'' ht
      have := IterAnswers.next (I := I) (s := s) (t := t) (s' := s'') (by rw [h]; exact ht)
      rwa [h] at this
    have hh : ∀ s a s', I.sizeHint s = (a, s') → ∀ t s'', IterAnswers I s' t s'' → IterAnswers I s (.sizeHint a :: t) s'' := by
      intro s a s' h t s'' ht
      have := IterAnswers.sizeHint (I := I) (s := s) (t := t) (s' := s'') (by rw [h]; exact ht)
      rwa [h] at this
    rcases hx : I.next s with ⟨⟨a⟩ | ⟨e⟩ | _, s1⟩
    · cases a with
      | none =>
        simp only [DerivationPath.extendFrom, hx]
        exact hn _ _ hx _ _ (.nil _)
      | some c =>
        by_cases hf : v.full p.path.length = true
        · rcases hy : I.sizeHint s1 with ⟨⟨l⟩ | ⟨e⟩ | _, s2⟩
          · simp only [DerivationPath.extendFrom, hx, hf, hy, if_true]
            split
            · exact hn _ _ hx _ _ (hh _ _ _ hy _ _ (.nil _))
            · exact hn _ _ hx _ _ (hh _ _ _ hy _ _ (ih _ _))
          · exact e.elim
          · simp only [DerivationPath.extendFrom, hx, hf, hy, if_true]
            exact hn _ _ hx _ _ (hh _ _ _ hy _ _ (.nil _))
        · simp only [DerivationPath.extendFrom, hx, hf]
          exact hn _ _ hx _ _ (ih _ _)
    · exact e.elim
    · simp only [DerivationPath.extendFrom, hx]
      exact hn _ _ hx _ _ (.nil _)

theorem numbersGiven_append (a b : List Asked) : numbersGiven (a ++ b) = numbersGiven a ++ numbersGiven b := by
  induction a with
  | nil => rfl
  | cons x t ih =>
    rcases x with (((_ | c)) | _ | _) | _ <;> simp [numbersGiven, ih]

/-- **C114** Whatever a caller's iterator does, `extend` only appends numbers that it gave, in the order in which it gave them.
While `extend` runs, the path holds all of them.  It returns when the iterator ends, and then the path holds all of them.  If
it panics, because `next` panicked, the path holds all that were given before; if because `size_hint` panicked or claims more
than a vector can hold, all but the last. -/
theorem C114_extend_appends_given {σ : Type} (I : ChildIter σ) (v : VecGrowth) (calls : Nat) (p p' : DerivationPath)
    (s s' : σ) (out : Option (Res Empty Unit)) (trace : List Asked)
    (h : p.extendFrom I v calls s = (out, p', s', trace)) :
    IterAnswers I s trace s' ∧
    (out = none → nextCalls trace = calls ∧ p'.iter = p.iter ++ numbersGiven trace) ∧
    (out = some (.ok ()) → (∃ t, trace = t ++ [.next (.ok none)]) ∧ p'.iter = p.iter ++ numbersGiven trace) ∧
    (out = some .panic →
      (∃ t, trace = t ++ [.next .panic]) ∧ p'.iter = p.iter ++ numbersGiven trace ∨
      ∃ t c a, trace = t ++ [.next (.ok (some c)), .sizeHint a] ∧ p'.iter = p.iter ++ numbersGiven t ∧
        (a = .panic ∨ ∃ lower, a = .ok lower ∧ v.maxLen < p'.len + lower + 1)) := by
  refine ⟨by simpa [h] using extendFrom_answers I v calls p s, ?_⟩
  induction calls generalizing p s trace with
  | zero =>
    simp only [DerivationPath.extendFrom, Prod.mk.injEq] at h
    obtain ⟨rfl, rfl, rfl, rfl⟩ := h
    simp [nextCalls, numbersGiven]
  | succ k ih =>
    have key : ∀ c s1 pre, numbersGiven pre = [c] → nextCalls pre = 1 → ∀ tr, trace = pre ++ tr →
        (p.push c).extendFrom I v k s1 = (out, p', s', tr) →
        (out = none → nextCalls trace = k + 1 ∧ p'.iter = p.iter ++ numbersGiven trace) ∧
        (out = some (.ok ()) → (∃ t, trace = t ++ [.next (.ok none)]) ∧ p'.iter = p.iter ++ numbersGiven trace) ∧
        (out = some .panic →
          (∃ t, trace = t ++ [.next .panic]) ∧ p'.iter = p.iter ++ numbersGiven trace ∨
          ∃ t c a, trace = t ++ [.next (.ok (some c)), .sizeHint a] ∧ p'.iter = p.iter ++ numbersGiven t ∧
            (a = .panic ∨ ∃ lower, a = .ok lower ∧ v.maxLen < p'.len + lower + 1)) := by
      intro c s1 pre hg hc tr htr hr
      have hnc : ∀ a b, nextCalls (a ++ b) = nextCalls a + nextCalls b := by
        intro a b
        induction a with
        | nil => simp [nextCalls]
        | cons x t iht => rcases x with _ | _ <;> simp [nextCalls, iht] <;> omega
      have hp : ∀ l, (p.push c).iter ++ l = p.iter ++ (c :: l) := by
        intro l
        simp [DerivationPath.push, DerivationPath.iter]
      have := ih (p.push c) s1 tr hr
      subst htr
      obtain ⟨A, B, C⟩ := this
      refine ⟨fun ho => ?_, fun ho => ?_, fun ho => ?_⟩
      · obtain ⟨h1, h2⟩ := A ho
        refine ⟨by rw [hnc, hc, h1]; omega, ?_⟩
        rw [h2, hp, numbersGiven_append, hg]; rfl
      · obtain ⟨⟨t, h1⟩, h2⟩ := B ho
        refine ⟨⟨pre ++ t, by rw [h1, List.append_assoc]⟩, ?_⟩
        rw [h2, hp, numbersGiven_append, hg]; rfl
      · rcases C ho with ⟨⟨t, h1⟩, h2⟩ | ⟨t, c', a, h1, h2, h3⟩
        · refine .inl ⟨⟨pre ++ t, by rw [h1, List.append_assoc]⟩, ?_⟩
          rw [h2, hp, numbersGiven_append, hg]; rfl
        · refine .inr ⟨pre ++ t, c', a, by rw [h1, List.append_assoc], ?_, h3⟩
          rw [h2, hp, numbersGiven_append, hg]; rfl
    rcases hx : I.next s with ⟨⟨a⟩ | ⟨e⟩ | _, s1⟩
    · cases a with
      | none =>
        simp only [DerivationPath.extendFrom, hx, Prod.mk.injEq] at h
        obtain ⟨rfl, rfl, rfl, rfl⟩ := h
        exact ⟨by simp, fun _ => ⟨⟨[], rfl⟩, by simp [numbersGiven]⟩, by simp⟩
      | some c =>
        by_cases hf : v.full p.path.length = true
        · rcases hy : I.sizeHint s1 with ⟨⟨l⟩ | ⟨e⟩ | _, s2⟩
          · simp only [DerivationPath.extendFrom, hx, hf, hy, if_true] at h
            split at h
            · simp only [Prod.mk.injEq] at h
              obtain ⟨rfl, rfl, rfl, rfl⟩ := h
              exact ⟨by simp, by simp, fun _ =>
                .inr ⟨[], c, _, rfl, by simp [numbersGiven], .inr ⟨l, rfl, by simp only [DerivationPath.len]; omega⟩⟩⟩
            · rcases hr : (p.push c).extendFrom I v k s2 with ⟨o, q, u, tr⟩
              simp only [hr, Prod.mk.injEq] at h
              obtain ⟨rfl, rfl, rfl, h4⟩ := h
              exact key c s2 [.next (.ok (some c)), .sizeHint (.ok l)] rfl rfl tr h4.symm hr
          · exact e.elim
          · simp only [DerivationPath.extendFrom, hx, hf, hy, if_true, Prod.mk.injEq] at h
            obtain ⟨rfl, rfl, rfl, rfl⟩ := h
            exact ⟨by simp, by simp, fun _ => .inr ⟨[], c, _, rfl, by simp [numbersGiven], .inl rfl⟩⟩
        · rcases hr : (p.push c).extendFrom I v k s1 with ⟨o, q, u, tr⟩
          simp only [DerivationPath.extendFrom, hx, hf] at h
          rw [if_neg (by decide), hr] at h
          simp only [Prod.mk.injEq] at h
          obtain ⟨rfl, rfl, rfl, h4⟩ := h
          exact key c s1 [.next (.ok (some c))] rfl rfl tr h4.symm hr
    · exact e.elim
    · simp only [DerivationPath.extendFrom, hx, Prod.mk.injEq] at h
      obtain ⟨rfl, rfl, rfl, rfl⟩ := h
      exact ⟨by simp, by simp, fun _ => .inl ⟨⟨[], rfl⟩, by simp [numbersGiven]⟩⟩

/-- If a vector is never full, `size_hint` is not asked. -/
theorem not_asked {σ : Type} (I : ChildIter σ) (m : Nat) (calls : Nat) (p : DerivationPath) (s : σ) (a) :
    .sizeHint a ∉ (p.extendFrom I ⟨fun _ => false, m⟩ calls s).2.2.2 := by
  induction calls generalizing p s with
  | zero => simp [DerivationPath.extendFrom]
  | succ k ih =>
    rcases hx : I.next s with ⟨⟨_ | c⟩ | ⟨e⟩ | _, s1⟩
    · simp [DerivationPath.extendFrom, hx]
    · simpa [DerivationPath.extendFrom, hx] using ih _ _
    · exact e.elim
    · simp [DerivationPath.extendFrom, hx]

/-- **C114** With an iterator of the standard library whose length is certain, mapped by a caller's code: `extend` panics before
it takes a number if they do not fit; otherwise the path holds all numbers that were given, also after a panic. -/
theorem C114_extend_trusted {σ : Type} (I : ChildIter σ) (v : VecGrowth) (calls : Nat) (p p' : DerivationPath)
    (s s' : σ) (out : Option (Res Empty Unit)) (trace : List Asked)
    (h : p.extendTrusted I v calls s = (out, p', s', trace)) :
    IterAnswers I s trace s' ∧ p'.iter = p.iter ++ numbersGiven trace ∧
    (out = none → nextCalls trace = calls) ∧
    (out = some (.ok ()) → ∃ t, trace = t ++ [.next (.ok none)]) ∧
    (out = some .panic → (∃ t, trace = t ++ [.next .panic]) ∨
      ∃ a, trace = [.sizeHint a] ∧ (a = .panic ∨ ∃ count, a = .ok count ∧ v.maxLen < p.len + count)) := by
  have hh : ∀ a s1, I.sizeHint s = (a, s1) → ∀ t s'', IterAnswers I s1 t s'' → IterAnswers I s (.sizeHint a :: t) s'' := by
    intro a s1 h t s'' ht
    have := IterAnswers.sizeHint (I := I) (s := s) (t := t) (s' := s'') (by rw [h]; exact ht)
    rwa [h] at this
  rcases hy : I.sizeHint s with ⟨⟨l⟩ | ⟨e⟩ | _, s1⟩
  · by_cases hm : v.maxLen < p.path.length + l
    · simp only [DerivationPath.extendTrusted, hy, hm, if_true, Prod.mk.injEq] at h
      obtain ⟨rfl, rfl, rfl, rfl⟩ := h
      exact ⟨hh _ _ hy _ _ (.nil _), by simp [numbersGiven], by simp, by simp, fun _ => .inr ⟨_, rfl, .inr ⟨l, rfl, hm⟩⟩⟩
    · rcases hr : p.extendFrom I { v with full := fun _ => false } calls s1 with ⟨o, q, u, tr⟩
      simp only [DerivationPath.extendTrusted, hy, hm, if_false, hr, Prod.mk.injEq] at h
      obtain ⟨rfl, rfl, rfl, rfl⟩ := h
      obtain ⟨h1, h2, h3, h4⟩ := C114_extend_appends_given I _ calls p q s1 u o tr hr
      have hno : ∀ a, .sizeHint a ∉ tr := fun a => by
        have := not_asked I v.maxLen calls p s1 a
        rwa [hr] at this
      have h4' : o = some .panic → (∃ t, tr = t ++ [.next .panic]) ∧ q.iter = p.iter ++ numbersGiven tr := by
        intro ho
        rcases h4 ho with h | ⟨t, c, a, ht, _⟩
        · exact h
        · exact absurd (by simp [ht]) (hno a)
      refine ⟨hh _ _ hy _ _ h1, ?_, fun ho => (h2 ho).1, ?_, ?_⟩
      · show q.iter = p.iter ++ numbersGiven tr
        rcases o with _ | (_ | e | _)
        · exact (h2 rfl).2
        · exact (h3 rfl).2
        · exact e.elim
        · exact (h4' rfl).2
      · intro ho
        obtain ⟨⟨t, ht⟩, _⟩ := h3 ho
        exact ⟨.sizeHint (.ok l) :: t, by rw [ht]; rfl⟩
      · intro ho
        obtain ⟨⟨t, ht⟩, _⟩ := h4' ho
        exact .inl ⟨.sizeHint (.ok l) :: t, by rw [ht]; rfl⟩
  · exact e.elim
  · simp only [DerivationPath.extendTrusted, hy, Prod.mk.injEq] at h
    obtain ⟨rfl, rfl, rfl, rfl⟩ := h
    exact ⟨hh _ _ hy _ _ (.nil _), by simp [numbersGiven], by simp, by simp, fun _ => .inr ⟨_, rfl, .inl rfl⟩⟩

/-- The iterator over a list that does not misstate its length. -/
def listIter : ChildIter (List ChildNumber) where
  next
    | [] => (.ok none, [])
    | c :: cs => (.ok (some c), cs)
  sizeHint cs := (.ok cs.length, cs)

/-- **C114** An iterator over finitely many numbers is called once for each and once more at its end, and they are appended,
however the vector grows, if they fit in one: `extend` of the other properties. -/
theorem C114_extend_with_list (v : VecGrowth) (p : DerivationPath) (cs : List ChildNumber) (calls : Nat)
    (hfit : p.len + cs.length ≤ v.maxLen) (hcalls : cs.length < calls) :
    ∃ trace, p.extendFrom listIter v calls cs = (some (.ok ()), p.extend cs, [], trace) ∧
      nextCalls trace = cs.length + 1 ∧ numbersGiven trace = cs := by
  induction cs generalizing p calls with
  | nil =>
    obtain ⟨k, rfl⟩ : ∃ k, calls = k + 1 := ⟨calls - 1, by simp at hcalls; omega⟩
    refine ⟨[.next (.ok none)], ?_, rfl, rfl⟩
    rw [show p.extend [] = p by simp [DerivationPath.extend]]
    rfl
  | cons c cs ih =>
    obtain ⟨k, rfl⟩ : ∃ k, calls = k + 1 := ⟨calls - 1, by simp at hcalls; omega⟩
    simp only [List.length_cons] at hfit hcalls
    obtain ⟨tr, h1, h2, h3⟩ := ih (p.push c) k
      (by simp only [DerivationPath.push, DerivationPath.len, List.length_append, List.length_singleton] at hfit ⊢; omega)
      (by omega)
    have he : (p.push c).extend cs = p.extend (c :: cs) := by simp [DerivationPath.push, DerivationPath.extend]
    by_cases hf : v.full p.path.length = true
    · refine ⟨.next (.ok (some c)) :: .sizeHint (.ok cs.length) :: tr, ?_, by simp [nextCalls, h2], by simp [numbersGiven, h3]⟩
      have hm : ¬ v.maxLen < p.path.length + (cs.length + 1) := by simp only [DerivationPath.len] at hfit; omega
      simp only [DerivationPath.extendFrom, listIter, hf, if_true, hm, if_false] at h1 ⊢
      simp only [h1, he]
    · refine ⟨.next (.ok (some c)) :: tr, ?_, by simp [nextCalls, h2], by simp [numbersGiven, h3]⟩
      simp only [DerivationPath.extendFrom, listIter, hf] at h1 ⊢
      simp only [h1, he]
      rfl

/-- Two numbers, then a panic. -/
def failing : ChildIter Nat where
  next
    | 0 => (.ok (some ⟨44⟩), 1)
    | 1 => (.ok (some ⟨7⟩), 2)
    | s => (.panic, s)
  sizeHint s := (.ok 100, s)

/-- A path of one number keeps both numbers of an iterator that panics at its third call. -/
example : (DerivationPath.extendFrom failing ⟨fun n => n == 1, 1000⟩ 5 ⟨[⟨0⟩]⟩ 0).1 = some .panic ∧
    (DerivationPath.extendFrom failing ⟨fun n => n == 1, 1000⟩ 5 ⟨[⟨0⟩]⟩ 0).2.1.iter = [⟨0⟩, ⟨44⟩, ⟨7⟩] := by
  constructor <;> rfl

/-- If the vector has no room for the hundred numbers that it is told of, the number in hand is lost. -/
example : (DerivationPath.extendFrom failing ⟨fun n => n == 2, 50⟩ 5 ⟨[⟨0⟩]⟩ 0).1 = some .panic ∧
    (DerivationPath.extendFrom failing ⟨fun n => n == 2, 50⟩ 5 ⟨[⟨0⟩]⟩ 0).2.1.iter = [⟨0⟩, ⟨44⟩] := by
  constructor <;> rfl

example : (DerivationPath.extendTrusted failing ⟨fun _ => true, 1000⟩ 5 ⟨[⟨0⟩]⟩ 0).1 = some .panic ∧
    (DerivationPath.extendTrusted failing ⟨fun _ => true, 1000⟩ 5 ⟨[⟨0⟩]⟩ 0).2.1.iter = [⟨0⟩, ⟨44⟩, ⟨7⟩] := by
  constructor <;> rfl

end Kms.Props
