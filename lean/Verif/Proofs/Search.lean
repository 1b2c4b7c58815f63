import Verif.Proofs.Language
/-
Binary search and prefix search on word lists.
-/
namespace Kms.Bip39
open Language

/-- Sorted strictly by the order of strings. -/
abbrev StrictSorted (wl : List Str) : Prop := wl.Pairwise (fun a b => strCmp a b = .lt)

/-- What the standard library documents about `binary_search` on a sorted slice: `Ok(i)` is a position of the
key, `Err(i)` is where it could be inserted keeping the slice sorted. -/
def SearchContract (search : WordList → Str → Nat ⊕ Nat) : Prop :=
  ∀ wl key, StrictSorted wl →
    match search wl key with
    | .inl i => wl[i]? = some key
    | .inr i => i ≤ wl.length ∧ (∀ j (h : j < wl.length), j < i → strCmp wl[j] key = .lt) ∧
        (∀ j (h : j < wl.length), i ≤ j → strCmp wl[j] key = .gt)

theorem sorted_lt {wl : List Str} (hs : StrictSorted wl) {i j : Nat} (hi : i < wl.length) (hj : j < wl.length)
    (h : i < j) : strCmp wl[i] wl[j] = .lt :=
  List.pairwise_iff_getElem.mp hs i j hi hj h

theorem binarySearchLoop_spec (wl : List Str) (key : Str) (hs : StrictSorted wl) (fuel left right : Nat)
    (hf : right - left < fuel) (hlr : left ≤ right) (hr : right ≤ wl.length)
    (hlo : ∀ j (h : j < wl.length), j < left → strCmp wl[j] key = .lt)
    (hhi : ∀ j (h : j < wl.length), right ≤ j → strCmp wl[j] key = .gt) :
    match binarySearchLoop wl key fuel left right with
    | .inl i => wl[i]? = some key
    | .inr i => i ≤ wl.length ∧ (∀ j (h : j < wl.length), j < i → strCmp wl[j] key = .lt) ∧
        (∀ j (h : j < wl.length), i ≤ j → strCmp wl[j] key = .gt) := by
  induction fuel generalizing left right with
  | zero => omega
  | succ fuel ih =>
    unfold binarySearchLoop
    by_cases hlt : left < right
    · rw [if_pos hlt]
      have hm : left + (right - left) / 2 < wl.length := by omega
      have hg : wl.getD (left + (right - left) / 2) [] = wl[left + (right - left) / 2] := by
        rw [List.getD_eq_getElem?_getD, List.getElem?_eq_getElem hm, Option.getD_some]
      simp only [hg]
      cases hc : strCmp wl[left + (right - left) / 2] key with
      | lt =>
        apply ih _ _ (by omega) (by omega) hr _ hhi
        intro j hj hjl
        by_cases he : j = left + (right - left) / 2
        · subst he; exact hc
        · exact strCmp_trans (sorted_lt hs hj hm (by omega)) hc
      | gt =>
        apply ih _ _ (by omega) (by omega) (by omega) hlo
        intro j hj hjl
        by_cases he : j = left + (right - left) / 2
        · subst he; exact hc
        · rw [strCmp_gt_iff] at hc ⊢
          exact strCmp_trans hc (sorted_lt hs hm hj (by omega))
      | eq =>
        simp only
        rw [List.getElem?_eq_getElem hm, (strCmp_eq_iff _ _).mp hc]
    · rw [if_neg hlt]
      have : left = right := by omega
      subst this
      exact ⟨hr, hlo, hhi⟩

theorem binarySearch_contract : SearchContract binarySearch := by
  intro wl key hs
  unfold binarySearch
  exact binarySearchLoop_spec wl key hs _ 0 wl.length (by omega) (by omega) (by omega) (by simp) (by intro j h h'; omega)

theorem binarySearchLoop'_spec (wl : List Str) (key : Str) (hs : StrictSorted wl) (fuel base size : Nat)
    (hf : size ≤ fuel) (h1 : 1 ≤ size) (hr : base + size ≤ wl.length)
    (hlo : ∀ j (h : j < wl.length), j < base → strCmp wl[j] key = .lt)
    (hhi : ∀ j (h : j < wl.length), base + size ≤ j → strCmp wl[j] key = .gt) :
    binarySearchLoop' wl key fuel base size < wl.length ∧
    (∀ j (h : j < wl.length), j < binarySearchLoop' wl key fuel base size → strCmp wl[j] key = .lt) ∧
    (∀ j (h : j < wl.length), binarySearchLoop' wl key fuel base size < j → strCmp wl[j] key = .gt) := by
  induction fuel generalizing base size with
  | zero => omega
  | succ fuel ih =>
    unfold binarySearchLoop'
    by_cases hsz : size > 1
    · rw [if_pos hsz]
      have hm : base + size / 2 < wl.length := by omega
      have hg : wl.getD (base + size / 2) [] = wl[base + size / 2] := by
        rw [List.getD_eq_getElem?_getD, List.getElem?_eq_getElem hm, Option.getD_some]
      simp only [hg]
      by_cases hc : strCmp wl[base + size / 2] key = .gt
      · rw [if_pos hc]
        apply ih _ _ (by omega) (by omega) (by omega) hlo
        intro j hj hjl
        by_cases he : j = base + size / 2
        · subst he; exact hc
        · rw [strCmp_gt_iff] at hc ⊢
          exact strCmp_trans hc (sorted_lt hs hm hj (by omega))
      · rw [if_neg hc]
        apply ih _ _ (by omega) (by omega) (by omega)
        · intro j hj hjl
          have hlt := sorted_lt hs hj hm hjl
          cases hc' : strCmp wl[base + size / 2] key with
          | lt => exact strCmp_trans hlt hc'
          | eq => rw [← (strCmp_eq_iff _ _).mp hc']; exact hlt
          | gt => exact absurd hc' hc
        · intro j hj hjl
          exact hhi j hj (by omega)
    · rw [if_neg hsz]
      exact ⟨by omega, fun j h hj => hlo j h hj, fun j h hj => hhi j h (by omega)⟩

theorem binarySearch'_contract : SearchContract binarySearch' := by
  intro wl key hs
  unfold binarySearch'
  by_cases h0 : wl.length = 0
  · rw [if_pos h0]
    exact ⟨by omega, fun j h => by omega, fun j h => by omega⟩
  · rw [if_neg h0]
    obtain ⟨a, b, c⟩ := binarySearchLoop'_spec wl key hs (wl.length + 1) 0 wl.length (by omega) (by omega) (by omega)
      (by simp) (by intro j h h'; omega)
    simp only
    generalize binarySearchLoop' wl key (wl.length + 1) 0 wl.length = base at *
    have hg : wl.getD base [] = wl[base] := by
      rw [List.getD_eq_getElem?_getD, List.getElem?_eq_getElem a, Option.getD_some]
    rw [hg]
    cases hc : strCmp wl[base] key with
    | lt =>
      refine ⟨by omega, ?_, fun j h hj => c j h (by omega)⟩
      intro j h hj
      by_cases he : j = base
      · subst he; exact hc
      · exact b j h (by omega)
    | eq =>
      show wl[base]? = some key
      rw [List.getElem?_eq_getElem a, (strCmp_eq_iff _ _).mp hc]
    | gt =>
      refine ⟨by omega, fun j h hj => b j h hj, ?_⟩
      intro j h hj
      by_cases he : j = base
      · subst he; exact hc
      · exact c j h (by omega)

/-! ### prefixes -/

theorem prefix_not_lt {q w : Str} (h : q.isPrefixOf w = true) : strCmp w q ≠ .lt := by
  induction q generalizing w with
  | nil => cases w <;> simp [strCmp]
  | cons c q ih =>
    cases w with
    | nil => simp at h
    | cons d w =>
      simp [List.isPrefixOf] at h
      obtain ⟨rfl, h⟩ := h
      simp [strCmp]
      exact ih (by simpa using h)

/-- Beyond the last word with a prefix there is none. -/
theorem prefix_gap {q w w' : Str} (h1 : strCmp w q ≠ .lt) (h2 : q.isPrefixOf w = false) (h3 : strCmp w w' = .lt) :
    q.isPrefixOf w' = false := by
  induction q generalizing w w' with
  | nil => simp at h2
  | cons c q ih =>
    cases w with
    | nil => simp [strCmp] at h1
    | cons d w =>
      cases w' with
      | nil => simp
      | cons d' w' =>
        simp only [strCmp] at h1 h3
        by_cases hcd : c = d
        · subst hcd
          rw [if_neg (by omega), if_neg (by omega)] at h1
          simp [List.isPrefixOf] at h2 ⊢
          intro hcd'
          subst hcd'
          rw [if_neg (by omega), if_neg (by omega)] at h3
          have := ih h1 (by simpa using h2) h3
          simpa using this
        · have hne : c.toNat ≠ d.toNat := fun e => hcd (Char.toNat_inj.mp e)
          have hlt : c.toNat < d.toNat := by
            by_contra hge
            rw [if_pos (by omega)] at h1
            exact h1 rfl
          simp [List.isPrefixOf]
          intro hcd'
          subst hcd'
          rw [if_neg (by omega), if_pos hlt] at h3
          simp at h3

theorem takeWhile_eq_filter_sorted (q : Str) (l : List Str) (hs : StrictSorted l) (h : ∀ w ∈ l, strCmp w q ≠ .lt) :
    l.takeWhile (fun w => q.isPrefixOf w) = l.filter (fun w => q.isPrefixOf w) := by
  induction l with
  | nil => rfl
  | cons w l ih =>
    obtain ⟨h1, h2⟩ := List.pairwise_cons.mp hs
    cases hp : q.isPrefixOf w with
    | true =>
      rw [List.takeWhile_cons, List.filter_cons]
      rw [if_pos hp, ih h2 (fun v hv => h v (by simp [hv]))]
      simp only [hp, if_true]
    | false =>
      rw [List.takeWhile_cons, List.filter_cons]
      simp only [hp, Bool.false_eq_true, if_false]
      symm
      rw [List.filter_eq_nil_iff]
      intro v hv
      rw [prefix_gap (h w (by simp)) hp (h1 v hv)]
      simp

theorem takeWhile_length_le {α : Type} (p : α → Bool) (l : List α) : (l.takeWhile p).length ≤ l.length :=
  (List.takeWhile_prefix p).length_le

theorem take_takeWhile {α : Type} (p : α → Bool) (l : List α) : l.take (l.takeWhile p).length = l.takeWhile p :=
  (List.prefix_iff_eq_take.mp (List.takeWhile_prefix p)).symm

/-- Search returns a position in range: the answer is the run of matching words from there. -/
theorem getWordsByPrefix_eq (search : WordList → Str → Nat ⊕ Nat) (wl : WordList) (q : Str) (start : Nat)
    (hst : unwrapOrElseId (search wl q) = start) (hle : start ≤ wl.length) :
    getWordsByPrefix search wl q = .ok ((wl.drop start).takeWhile (fun w => q.isPrefixOf w)) := by
  unfold getWordsByPrefix
  simp only [hst, sliceFrom, if_pos hle, Res.ok_bind]
  have := takeWhile_length_le (fun w => q.isPrefixOf w) (wl.drop start)
  rw [List.length_drop] at this
  rw [if_pos (by omega), take_takeWhile]

theorem getWordsByPrefix_sorted (search : WordList → Str → Nat ⊕ Nat) (hc : SearchContract search) (wl : WordList)
    (hs : StrictSorted wl) (q : Str) :
    getWordsByPrefix search wl q = .ok (wl.filter (fun w => q.isPrefixOf w)) := by
  have key : ∃ start, unwrapOrElseId (search wl q) = start ∧ start ≤ wl.length ∧
      (∀ j (h : j < wl.length), j < start → strCmp wl[j] q = .lt) ∧
      (∀ j (h : j < wl.length), start ≤ j → strCmp wl[j] q ≠ .lt) := by
    have := hc wl q hs
    split at this
    · rename_i i hi
      obtain ⟨hlt, hg⟩ := List.getElem?_eq_some_iff.mp this
      refine ⟨i, by rw [hi]; rfl, by omega, ?_, ?_⟩
      · intro j hj hji
        rw [← hg]; exact sorted_lt hs hj hlt hji
      · intro j hj hji
        by_cases he : j = i
        · subst he; rw [hg, strCmp_self]; simp
        · have h1 := sorted_lt hs hlt hj (by omega)
          rw [hg, ← strCmp_gt_iff] at h1
          rw [h1]; simp
    · rename_i i hi
      refine ⟨i, by rw [hi]; rfl, this.1, this.2.1, ?_⟩
      intro j hj hji
      rw [this.2.2 j hj hji]; simp
  obtain ⟨start, h1, h2, h3, h4⟩ := key
  rw [getWordsByPrefix_eq search wl q start h1 h2, takeWhile_eq_filter_sorted]
  · congr 1
    conv_rhs => rw [← List.take_append_drop start wl, List.filter_append]
    have hnil : List.filter (fun w => q.isPrefixOf w) (List.take start wl) = [] := by
      rw [List.filter_eq_nil_iff]
      intro w hw hp
      obtain ⟨j, hj, rfl⟩ := List.getElem_of_mem hw
      simp at hj
      rw [List.getElem_take] at hp
      exact prefix_not_lt hp (h3 j (by omega) (by omega))
    rw [hnil, List.nil_append]
  · exact List.Pairwise.drop hs
  · intro w hw
    obtain ⟨j, hj, rfl⟩ := List.getElem_of_mem hw
    simp at hj
    rw [List.getElem_drop]
    exact h4 _ (by omega) (by omega)

/-- On any list the loop's answer is in range. -/
theorem binarySearchLoop_le (wl : List Str) (key : Str) (fuel left right : Nat) (hlr : left ≤ right) (hr : right ≤ wl.length) :
    unwrapOrElseId (binarySearchLoop wl key fuel left right) ≤ wl.length := by
  induction fuel generalizing left right with
  | zero => simp only [binarySearchLoop, unwrapOrElseId]; omega
  | succ fuel ih =>
    unfold binarySearchLoop
    by_cases hlt : left < right
    · rw [if_pos hlt]
      simp only
      cases strCmp (wl.getD (left + (right - left) / 2) []) key with
      | lt => exact ih _ _ (by omega) hr
      | gt => exact ih _ _ (by omega) (by omega)
      | eq => simp only [unwrapOrElseId]; omega
    · rw [if_neg hlt]; simp only [unwrapOrElseId]; omega

theorem binarySearchLoop'_lt (wl : List Str) (key : Str) (fuel base size : Nat) (h1 : 1 ≤ size)
    (hr : base + size ≤ wl.length) : binarySearchLoop' wl key fuel base size < wl.length := by
  induction fuel generalizing base size with
  | zero => simp only [binarySearchLoop']; omega
  | succ fuel ih =>
    unfold binarySearchLoop'
    by_cases hsz : size > 1
    · rw [if_pos hsz]
      simp only
      split
      · exact ih _ _ (by omega) (by omega)
      · exact ih _ _ (by omega) (by omega)
    · rw [if_neg hsz]; omega

theorem binarySearch_le (wl : List Str) (key : Str) :
    unwrapOrElseId (binarySearch wl key) ≤ wl.length :=
  binarySearchLoop_le wl key _ _ _ (by omega) (by omega)

theorem binarySearch'_le (wl : List Str) (key : Str) :
    unwrapOrElseId (binarySearch' wl key) ≤ wl.length := by
  unfold binarySearch'
  split
  · simp [unwrapOrElseId]
  · have := binarySearchLoop'_lt wl key (wl.length + 1) 0 wl.length (by omega) (by omega)
    simp only
    cases strCmp (wl.getD (binarySearchLoop' wl key (wl.length + 1) 0 wl.length) []) key <;> simp only [unwrapOrElseId] <;> omega

end Kms.Bip39
