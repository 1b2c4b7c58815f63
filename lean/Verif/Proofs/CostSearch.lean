import Verif.Model.CostSearch
import Verif.Proofs.Cost
import Verif.Proofs.Search
/-
The counted searches return what the searches return, and how many steps they take.
-/
namespace Kms.Bip39
open Kms Kms.Counted Kms.Bip39.Language

theorem strCmpC_val (a b : Str) : (strCmpC a b).val = strCmp a b := by
  induction a generalizing b with
  | nil => cases b <;> rfl
  | cons x a ih =>
    cases b with
    | nil => rfl
    | cons y b =>
      rw [strCmpC, strCmp, val_bind]
      split
      · rfl
      · split
        · rfl
        · exact ih b

theorem strCmpC_steps (a b : Str) : (strCmpC a b).steps ≤ a.length := by
  induction a generalizing b with
  | nil => cases b <;> exact Nat.le_refl _
  | cons x a ih =>
    cases b with
    | nil => exact Nat.zero_le _
    | cons y b =>
      rw [strCmpC, steps_bind, steps_ticks, List.length_cons]
      have := ih b
      split
      · simp
      · split
        · simp
        · omega

theorem startsWithC_val (p w : Str) : (startsWithC p w).val = p.isPrefixOf w := by
  induction p generalizing w with
  | nil => simp [startsWithC]
  | cons x p ih =>
    cases w with
    | nil => rfl
    | cons y w =>
      rw [startsWithC, val_bind, List.isPrefixOf_cons_cons]
      by_cases h : x = y
      · rw [if_pos h, ih w]; simp [h]
      · rw [if_neg h]; simp [h]

theorem startsWithC_steps (p w : Str) : (startsWithC p w).steps ≤ w.length := by
  induction p generalizing w with
  | nil => simp [startsWithC]
  | cons x p ih =>
    cases w with
    | nil => exact Nat.le_refl _
    | cons y w =>
      rw [startsWithC, steps_bind, steps_ticks, List.length_cons]
      have := ih w
      split
      · omega
      · simp

theorem getD_length {wl : WordList} {L : Nat} (h : ∀ w ∈ wl, w.length ≤ L) (i : Nat) : (wl.getD i []).length ≤ L := by
  rw [List.getD_eq_getElem?_getD]
  cases hi : wl[i]? with
  | none => simp
  | some w => exact h w (List.mem_of_getElem? hi)

theorem binarySearchLoopC_val (wl : WordList) (key : Str) (fuel left right : Nat) :
    (binarySearchLoopC wl key fuel left right).val = binarySearchLoop wl key fuel left right := by
  induction fuel generalizing left right with
  | zero => rfl
  | succ fuel ih =>
    rw [binarySearchLoopC, binarySearchLoop]
    split
    · simp only [val_bind, strCmpC_val]
      cases strCmp (wl.getD (left + (right - left) / 2) []) key with
      | lt => exact ih _ _
      | gt => exact ih _ _
      | eq => rfl
    · rfl

theorem binarySearchLoopC_steps {wl : WordList} {L : Nat} (h : ∀ w ∈ wl, w.length ≤ L) (key : Str) (fuel left right k : Nat)
    (hk : right - left < 2 ^ k) : (binarySearchLoopC wl key fuel left right).steps ≤ (L + 1) * k := by
  induction fuel generalizing left right k with
  | zero => exact Nat.zero_le _
  | succ fuel ih =>
    rw [binarySearchLoopC]
    split
    · rename_i hlt
      cases k with
      | zero => omega
      | succ k =>
        rw [pow_succ] at hk
        have hc := (strCmpC_steps (wl.getD (left + (right - left) / 2) []) key).trans (getD_length h _)
        have h1 := ih (left + (right - left) / 2 + 1) right k (by omega)
        have h2 := ih left (left + (right - left) / 2) k (by omega)
        simp only [steps_bind, steps_ticks, Nat.mul_add, Nat.mul_one]
        split <;> (try simp only [steps_pure]) <;> omega
    · exact Nat.zero_le _

theorem binarySearchLoopC'_val (wl : WordList) (key : Str) (fuel base size : Nat) :
    (binarySearchLoopC' wl key fuel base size).val = binarySearchLoop' wl key fuel base size := by
  induction fuel generalizing base size with
  | zero => rfl
  | succ fuel ih =>
    rw [binarySearchLoopC', binarySearchLoop']
    split
    · simp only [val_bind, strCmpC_val]
      exact ih _ _
    · rfl

theorem binarySearchLoopC'_steps {wl : WordList} {L : Nat} (h : ∀ w ∈ wl, w.length ≤ L) (key : Str) (fuel base size k : Nat)
    (hk : size ≤ 2 ^ k) : (binarySearchLoopC' wl key fuel base size).steps ≤ (L + 1) * k := by
  induction fuel generalizing base size k with
  | zero => exact Nat.zero_le _
  | succ fuel ih =>
    rw [binarySearchLoopC']
    split
    · rename_i hlt
      cases k with
      | zero => rw [pow_zero] at hk; omega
      | succ k =>
        rw [pow_succ] at hk
        have hc := (strCmpC_steps (wl.getD (base + size / 2) []) key).trans (getD_length h _)
        simp only [steps_bind, steps_ticks, Nat.mul_add, Nat.mul_one]
        have h1 := ih (if (strCmpC (wl.getD (base + size / 2) []) key).val = .gt then base else base + size / 2)
          (size - size / 2) k (by omega)
        omega
    · exact Nat.zero_le _

theorem binarySearchC_val (wl : WordList) (key : Str) : (binarySearchC wl key).val = binarySearch wl key :=
  binarySearchLoopC_val _ _ _ _ _

theorem binarySearchC'_val (wl : WordList) (key : Str) : (binarySearchC' wl key).val = binarySearch' wl key := by
  unfold binarySearchC' binarySearch'
  split
  · rfl
  · simp only [val_bind, strCmpC_val, binarySearchLoopC'_val]
    split <;> rename_i h <;> rw [h] <;> rfl

theorem binarySearchC_steps {wl : WordList} {L : Nat} (h : ∀ w ∈ wl, w.length ≤ L) (key : Str) (j : Nat)
    (hj : wl.length ≤ 2 ^ j) : (binarySearchC wl key).steps ≤ (L + 1) * (j + 1) :=
  binarySearchLoopC_steps h key _ _ _ _ (by rw [pow_succ]; have := Nat.two_pow_pos j; omega)

theorem binarySearchC'_steps {wl : WordList} {L : Nat} (h : ∀ w ∈ wl, w.length ≤ L) (key : Str) (j : Nat)
    (hj : wl.length ≤ 2 ^ j) : (binarySearchC' wl key).steps ≤ (L + 1) * (j + 1) := by
  unfold binarySearchC'
  split
  · exact Nat.zero_le _
  · simp only [steps_bind, steps_ticks]
    have h1 := binarySearchLoopC'_steps h key (wl.length + 1) 0 wl.length j hj
    have h2 := (strCmpC_steps (wl.getD (binarySearchLoopC' wl key (wl.length + 1) 0 wl.length).val []) key).trans
      (getD_length h _)
    rw [Nat.mul_add, Nat.mul_one]
    split <;> simp only [steps_pure] <;> omega

theorem countPrefixedC_val (p : Str) (wl : WordList) :
    (countPrefixedC p wl).val = (wl.takeWhile (fun word => p.isPrefixOf word)).length := by
  induction wl with
  | nil => rfl
  | cons w wl ih =>
    rw [countPrefixedC, val_bind, val_bind, startsWithC_val, List.takeWhile_cons]
    split
    · rw [val_bind, ih]; rfl
    · rfl

theorem countPrefixedC_steps {wl : WordList} {L : Nat} (h : ∀ w ∈ wl, w.length ≤ L) (p : Str) :
    (countPrefixedC p wl).steps ≤ (L + 1) * ((countPrefixedC p wl).val + 1) := by
  induction wl with
  | nil => exact Nat.zero_le _
  | cons w wl ih =>
    have ih := ih (fun w hw => h w (List.mem_cons_of_mem _ hw))
    have h1 := (startsWithC_steps p w).trans (h w List.mem_cons_self)
    rw [countPrefixedC]
    simp only [steps_bind, val_bind, steps_ticks]
    split
    · simp only [steps_bind, val_bind, steps_pure, val_pure]
      rw [Nat.mul_add, Nat.mul_one]
      omega
    · simp only [steps_pure, val_pure, Nat.zero_add, Nat.mul_one]
      omega

theorem getWordsByPrefixC_val (search : WordList → Str → Counted (Nat ⊕ Nat)) (wl : WordList) (p : Str) :
    (getWordsByPrefixC search wl p).val = getWordsByPrefix (fun wl p => (search wl p).val) wl p := by
  unfold getWordsByPrefixC getWordsByPrefix
  rw [val_bind, val_andThen]
  simp only [val_pure, val_bind, countPrefixedC_val]
  cases sliceFrom wl (unwrapOrElseId (search wl p).val) with
  | ok tail =>
    show Counted.val (if _ then _ else _) = if _ then _ else _
    split <;> rfl
  | err e => rfl
  | panic => rfl

/-- For a search that takes at most `S` steps and answers a position in the list. -/
theorem getWordsByPrefixC_steps {search : WordList → Str → Counted (Nat ⊕ Nat)} {wl : WordList} {p : Str} {L S : Nat}
    (h : ∀ w ∈ wl, w.length ≤ L) (hs : (search wl p).steps ≤ S) (hle : unwrapOrElseId (search wl p).val ≤ wl.length) :
    ∃ ws, (getWordsByPrefixC search wl p).val = .ok ws ∧
      (getWordsByPrefixC search wl p).steps ≤ S + (L + 1) * (ws.length + 1) := by
  have hc := countPrefixedC_steps (wl := wl.drop (unwrapOrElseId (search wl p).val))
    (fun w hw => h w (List.mem_of_mem_drop hw)) p
  have hv := countPrefixedC_val p (wl.drop (unwrapOrElseId (search wl p).val))
  have hl : (countPrefixedC p (wl.drop (unwrapOrElseId (search wl p).val))).val ≤
      (wl.drop (unwrapOrElseId (search wl p).val)).length := by
    rw [hv]; exact (List.takeWhile_prefix _).length_le
  have hl' := hl
  rw [List.length_drop] at hl'
  refine ⟨(wl.drop (unwrapOrElseId (search wl p).val)).take
    (countPrefixedC p (wl.drop (unwrapOrElseId (search wl p).val))).val, ?_, ?_⟩
  · unfold getWordsByPrefixC
    rw [val_bind, val_andThen]
    simp only [val_pure, sliceFrom, if_pos hle]
    show Counted.val (_ >>= _) = _
    rw [val_bind, if_pos (by omega)]
    rfl
  · unfold getWordsByPrefixC
    rw [steps_bind]
    unfold andThen
    simp only [val_pure, sliceFrom, if_pos hle, steps_bind, steps_pure]
    rw [if_pos (by omega), List.length_take, Nat.min_eq_left hl]
    simp only [steps_pure]
    omega

/-! ### Language detection -/

theorem restOfWordC_spec (s : Str) : (splitWs s).head? = some (restOfWordC s).val := by
  induction s with
  | nil => rfl
  | cons c cs ih =>
    rw [splitWs, restOfWordC, val_bind]
    split
    · rfl
    · rw [val_bind]
      cases h : splitWs cs with
      | nil => rw [h] at ih; simp at ih
      | cons w ws => rw [h] at ih; simp at ih; simp [ih]

theorem restOfWordC_steps (s : Str) : (restOfWordC s).steps ≤ (restOfWordC s).val.length + 1 ∧
    (restOfWordC s).steps ≤ s.length := by
  induction s with
  | nil => exact ⟨Nat.zero_le _, Nat.zero_le _⟩
  | cons c cs ih =>
    rw [restOfWordC]
    simp only [steps_bind, steps_ticks, val_bind]
    split
    · simp
    · simp only [steps_bind, val_bind, steps_pure, val_pure, List.length_cons]
      omega

theorem firstWordC_val (s : Str) : (firstWordC s).val = (splitWhitespace s).head? := by
  induction s with
  | nil => rfl
  | cons c cs ih =>
    rw [firstWordC]
    unfold splitWhitespace at *
    rw [splitWs]
    split
    · rw [val_bind, ih]; simp
    · simp only [val_bind, val_pure]
      have := restOfWordC_spec cs
      cases h : splitWs cs with
      | nil => rw [h] at this; simp at this
      | cons w ws => rw [h] at this; simp at this; simp [this]

theorem firstWordC_steps (s : Str) : (firstWordC s).steps ≤ s.length := by
  induction s with
  | nil => exact Nat.zero_le _
  | cons c cs ih =>
    rw [firstWordC]
    have := (restOfWordC_steps cs).2
    split
    · simp only [steps_bind, steps_ticks, List.length_cons]; omega
    · simp only [steps_bind, steps_ticks, steps_pure, List.length_cons]; omega

theorem restOfWordC_append {word : Str} (hw : ∀ c ∈ word, isWhitespace c = false) {c : Char} (hc : isWhitespace c = true)
    (rest : Str) : restOfWordC (word ++ c :: rest) = ⟨word, word.length + 1⟩ := by
  induction word with
  | nil =>
    rw [List.nil_append, restOfWordC]
    simp only [hc, if_true]
    rfl
  | cons d word ih =>
    rw [List.cons_append, restOfWordC, ih (fun c h => hw c (List.mem_cons_of_mem _ h)), hw d List.mem_cons_self]
    show (⟨_, _⟩ : Counted Str) = _
    simp only [Bool.false_eq_true, if_false]
    show (⟨_, 1 + (word.length + 1 + 0)⟩ : Counted Str) = _
    rw [List.length_cons]
    congr 1
    omega

theorem firstWordC_append {lead word : Str} (hl : ∀ c ∈ lead, isWhitespace c = true) (hne : word ≠ [])
    (hw : ∀ c ∈ word, isWhitespace c = false) {c : Char} (hc : isWhitespace c = true) (rest : Str) :
    firstWordC (lead ++ word ++ c :: rest) = ⟨some word, lead.length + word.length + 1⟩ := by
  induction lead with
  | nil =>
    cases word with
    | nil => exact absurd rfl hne
    | cons d word =>
      rw [List.nil_append, List.cons_append, firstWordC, hw d List.mem_cons_self]
      simp only [Bool.false_eq_true, if_false]
      rw [restOfWordC_append (fun c h => hw c (List.mem_cons_of_mem _ h)) hc]
      show (⟨_, 1 + (word.length + 1 + 0)⟩ : Counted (Option Str)) = _
      simp only [List.length_cons, List.length_nil]
      congr 1
      omega
  | cons d lead ih =>
    rw [List.cons_append, List.cons_append, firstWordC, hl d List.mem_cons_self]
    simp only [if_true]
    rw [ih (fun c h => hl c (List.mem_cons_of_mem _ h))]
    show (⟨_, 1 + (lead.length + word.length + 1)⟩ : Counted (Option Str)) = _
    rw [List.length_cons]
    congr 1
    omega

theorem restOfWordC_prefix (s : Str) : (restOfWordC s).val <+: s := by
  induction s with
  | nil => exact List.prefix_refl _
  | cons c cs ih =>
    rw [restOfWordC, val_bind]
    split
    · exact List.nil_prefix
    · simp only [val_bind, val_pure]
      exact List.cons_prefix_cons.2 ⟨rfl, ih⟩

theorem firstWordC_bytes (s w : Str) (h : (firstWordC s).val = some w) : (utf8 w).length ≤ (utf8 s).length := by
  induction s with
  | nil => cases h
  | cons c cs ih =>
    rw [firstWordC] at h
    split at h
    · have := ih h
      unfold utf8 at *
      rw [List.flatMap_cons, List.length_append]
      omega
    · simp only [val_bind, val_pure, Option.some.injEq] at h
      subst h
      obtain ⟨t, ht⟩ := restOfWordC_prefix cs
      conv_rhs => rw [← ht]
      unfold utf8
      rw [List.flatMap_cons, List.flatMap_cons, List.flatMap_append, List.length_append, List.length_append,
        List.length_append]
      omega

theorem utf8_length_ge (s : Str) : s.length ≤ (utf8 s).length := by
  induction s with
  | nil => exact Nat.le_refl _
  | cons c s ih =>
    have h : 1 ≤ (String.utf8EncodeChar c).length := by
      rw [String.length_utf8EncodeChar]
      exact Char.utf8Size_pos c
    unfold utf8 at *
    rw [List.flatMap_cons, List.length_append, List.length_cons]
    omega

end Kms.Bip39
