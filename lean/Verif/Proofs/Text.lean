import Verif.Model.Text
/-
Laws of splitting and joining.
-/
namespace Kms

theorem foldl_glue (glue : Str) (rest : List Str) (a b : Str) :
    rest.foldl (fun buffer item => (buffer ++ glue) ++ item) (a ++ b) =
      a ++ rest.foldl (fun buffer item => (buffer ++ glue) ++ item) b := by
  induction rest generalizing b with
  | nil => rfl
  | cons r rest ih =>
    simp only [List.foldl_cons]
    rw [List.append_assoc a b glue, List.append_assoc a, ih]

@[simp] theorem join_nil (glue : Str) : join glue [] = [] := rfl
@[simp] theorem join_single (glue w : Str) : join glue [w] = w := rfl

theorem join_cons_cons (glue a b : Str) (r : List Str) :
    join glue (a :: b :: r) = a ++ glue ++ join glue (b :: r) := by
  simp only [join, List.foldl_cons]
  rw [foldl_glue]

theorem splitChar_ne_nil (sep : Char) (s : Str) : splitChar sep s ≠ [] := by
  induction s with
  | nil => simp [splitChar]
  | cons c cs ih =>
    rw [splitChar]
    split
    · simp
    · split <;> simp

theorem splitChar_cons_ne {sep c : Char} {cs : Str} (h : c ≠ sep) :
    ∃ w ws, splitChar sep cs = w :: ws ∧ splitChar sep (c :: cs) = (c :: w) :: ws := by
  cases hs : splitChar sep cs with
  | nil => exact absurd hs (splitChar_ne_nil sep cs)
  | cons w ws => exact ⟨w, ws, rfl, by rw [splitChar, if_neg h, hs]⟩

theorem splitChar_sep (sep : Char) (cs : Str) : splitChar sep (sep :: cs) = [] :: splitChar sep cs := by
  rw [splitChar, if_pos rfl]

theorem splitChar_no_sep {sep : Char} {w : Str} (h : sep ∉ w) : splitChar sep w = [w] := by
  induction w with
  | nil => rfl
  | cons c cs ih =>
    simp at h
    rw [splitChar, if_neg (fun e => h.1 e.symm), ih h.2]

theorem splitChar_append {sep : Char} {w : Str} (h : sep ∉ w) (s : Str) :
    splitChar sep (w ++ sep :: s) = w :: splitChar sep s := by
  induction w with
  | nil => rw [List.nil_append, splitChar_sep]
  | cons c cs ih =>
    simp at h
    rw [List.cons_append, splitChar, if_neg (fun e => h.1 e.symm), ih h.2]

/-- Splitting undoes joining. -/
theorem splitChar_join {sep : Char} (ws : List Str) (hne : ws ≠ []) (h : ∀ w ∈ ws, sep ∉ w) :
    splitChar sep (join [sep] ws) = ws := by
  induction ws with
  | nil => exact absurd rfl hne
  | cons a ws ih =>
    cases ws with
    | nil => simpa using splitChar_no_sep (h a (by simp))
    | cons b r =>
      rw [join_cons_cons, List.append_assoc, List.singleton_append, splitChar_append (h a (by simp)),
        ih (by simp) (fun w hw => h w (by simp [hw]))]

/-- Joining undoes splitting. -/
theorem join_splitChar (sep : Char) (s : Str) : join [sep] (splitChar sep s) = s := by
  induction s with
  | nil => rfl
  | cons c cs ih =>
    by_cases hc : c = sep
    · subst hc
      rw [splitChar_sep]
      cases hs : splitChar c cs with
      | nil => exact absurd hs (splitChar_ne_nil c cs)
      | cons w ws => rw [join_cons_cons, ← hs, ih]; rfl
    · obtain ⟨w, ws, e1, e2⟩ := splitChar_cons_ne (cs := cs) hc
      rw [e2]
      rw [e1] at ih
      cases ws with
      | nil => simp at ih ⊢; exact ih
      | cons b r => rw [join_cons_cons] at ih ⊢; rw [← ih]; simp

theorem not_mem_of_mem_splitChar {sep : Char} {s w : Str} (h : w ∈ splitChar sep s) : sep ∉ w := by
  induction s generalizing w with
  | nil => simp [splitChar] at h; simp [h]
  | cons c cs ih =>
    by_cases hc : c = sep
    · subst hc
      rw [splitChar_sep] at h
      simp at h
      rcases h with rfl | h
      · simp
      · exact ih h
    · obtain ⟨v, ws, e1, e2⟩ := splitChar_cons_ne (cs := cs) hc
      rw [e2] at h
      simp at h
      rcases h with rfl | h
      · have := ih (w := v) (by rw [e1]; simp)
        simp [this]; exact fun e => hc e.symm
      · exact ih (by rw [e1]; simp [h])

theorem splitChar_length (sep : Char) (s : Str) : (splitChar sep s).length = s.count sep + 1 := by
  induction s with
  | nil => rfl
  | cons c cs ih =>
    by_cases hc : c = sep
    · subst hc; rw [splitChar_sep]; simp [ih]
    · obtain ⟨w, ws, e1, e2⟩ := splitChar_cons_ne (cs := cs) hc
      rw [e2, List.count_cons_of_ne hc, ← ih, e1]; simp

theorem mem_piece {sep c : Char} {s : Str} (h : c ∈ s) (hc : c ≠ sep) : ∃ w ∈ splitChar sep s, c ∈ w := by
  induction s with
  | nil => simp at h
  | cons d ds ih =>
    by_cases hd : d = sep
    · subst hd
      simp [hc] at h
      obtain ⟨w, hw, hcw⟩ := ih h
      exact ⟨w, by rw [splitChar_sep]; simp [hw], hcw⟩
    · obtain ⟨v, ws, e1, e2⟩ := splitChar_cons_ne (cs := ds) hd
      rw [e2]
      simp at h
      rcases h with rfl | h
      · exact ⟨c :: v, by simp, by simp⟩
      · obtain ⟨w, hw, hcw⟩ := ih h
        rw [e1] at hw
        simp at hw
        rcases hw with rfl | hw
        · exact ⟨d :: w, by simp, by simp [hcw]⟩
        · exact ⟨w, by simp [hw], hcw⟩

theorem mem_join {sep c : Char} {ws : List Str} (h : ∃ w ∈ ws, c ∈ w) : c ∈ join [sep] ws := by
  induction ws with
  | nil => simp at h
  | cons a r ih =>
    cases r with
    | nil => simpa using h
    | cons b r =>
      rw [join_cons_cons]
      simp only [List.mem_append]
      obtain ⟨w, hw, hc⟩ := h
      rw [List.mem_cons] at hw
      rcases hw with rfl | hw
      · exact .inl (.inl hc)
      · exact .inr (ih ⟨w, hw, hc⟩)

/-! white space -/

theorem splitWs_ne_nil (s : Str) : splitWs s ≠ [] := by
  cases s with
  | nil => simp [splitWs]
  | cons c cs =>
    rw [splitWs]
    split
    · simp
    · split <;> simp

theorem splitWs_cons_not {c : Char} {cs : Str} (h : isWhitespace c = false) :
    ∃ w ws, splitWs cs = w :: ws ∧ splitWs (c :: cs) = (c :: w) :: ws := by
  cases hs : splitWs cs with
  | nil => exact absurd hs (splitWs_ne_nil cs)
  | cons w ws => exact ⟨w, ws, rfl, by rw [splitWs, if_neg (by simp [h]), hs]⟩

theorem splitWs_cons_ws {c : Char} {cs : Str} (h : isWhitespace c = true) :
    splitWs (c :: cs) = [] :: splitWs cs := by
  rw [splitWs, if_pos h]

/-- A piece has no white space in it. -/
def NoWs (w : Str) : Prop := ∀ c ∈ w, isWhitespace c = false

theorem noWs_of_mem_splitWs {s w : Str} (h : w ∈ splitWs s) : NoWs w := by
  induction s generalizing w with
  | nil => simp [splitWs] at h; simp [h, NoWs]
  | cons c cs ih =>
    cases hc : isWhitespace c with
    | true =>
      rw [splitWs_cons_ws hc] at h
      simp at h
      rcases h with rfl | h
      · simp [NoWs]
      · exact ih h
    | false =>
      obtain ⟨v, ws, e1, e2⟩ := splitWs_cons_not (cs := cs) hc
      rw [e2] at h
      simp at h
      rcases h with rfl | h
      · have := ih (w := v) (by rw [e1]; simp)
        intro d hd
        simp at hd
        rcases hd with rfl | hd
        · exact hc
        · exact this d hd
      · exact ih (by rw [e1]; simp [h])

theorem mem_splitWhitespace {s w : Str} (h : w ∈ splitWhitespace s) : w ≠ [] ∧ NoWs w := by
  simp [splitWhitespace] at h
  exact ⟨h.2, noWs_of_mem_splitWs h.1⟩

theorem splitWs_append {w : Str} (h : NoWs w) {c : Char} (hc : isWhitespace c = true) (s : Str) :
    splitWs (w ++ c :: s) = w :: splitWs s := by
  induction w with
  | nil => exact splitWs_cons_ws hc
  | cons d ds ih =>
    have hd := h d (by simp)
    obtain ⟨v, ws, e1, e2⟩ := splitWs_cons_not (cs := ds ++ c :: s) hd
    rw [List.cons_append, e2]
    have := ih (fun x hx => h x (by simp [hx]))
    rw [e1] at this
    simp at this
    simp [this]

theorem splitWs_noWs {w : Str} (h : NoWs w) : splitWs w = [w] := by
  induction w with
  | nil => rfl
  | cons d ds ih =>
    obtain ⟨v, ws, e1, e2⟩ := splitWs_cons_not (cs := ds) (h d (by simp))
    rw [e2]
    have := ih (fun x hx => h x (by simp [hx]))
    rw [e1] at this
    simp at this
    simp [this]

theorem splitWhitespace_word_append {w : Str} (hne : w ≠ []) (h : NoWs w) {c : Char}
    (hc : isWhitespace c = true) (s : Str) :
    splitWhitespace (w ++ c :: s) = w :: splitWhitespace s := by
  simp [splitWhitespace, splitWs_append h hc, hne]

theorem splitWhitespace_word {w : Str} (hne : w ≠ []) (h : NoWs w) : splitWhitespace w = [w] := by
  simp [splitWhitespace, splitWs_noWs h, hne]

theorem splitWhitespace_ws_cons {c : Char} (hc : isWhitespace c = true) (s : Str) :
    splitWhitespace (c :: s) = splitWhitespace s := by
  simp [splitWhitespace, splitWs_cons_ws hc]

@[simp] theorem splitWhitespace_nil : splitWhitespace [] = [] := rfl

/-- Reading a file of words, one per line. -/
theorem splitWhitespace_lines (ws : List Str) (h : ∀ w ∈ ws, w ≠ [] ∧ NoWs w) :
    splitWhitespace (ws.flatMap (· ++ ['\n'])) = ws := by
  induction ws with
  | nil => rfl
  | cons w ws ih =>
    have hw := h w (by simp)
    rw [List.flatMap_cons, List.append_assoc, List.singleton_append,
      splitWhitespace_word_append hw.1 hw.2 (by decide), ih (fun v hv => h v (by simp [hv]))]

/-- Words joined by single spaces come back. -/
theorem splitWhitespace_join (ws : List Str) (h : ∀ w ∈ ws, w ≠ [] ∧ NoWs w) :
    splitWhitespace (join [' '] ws) = ws := by
  induction ws with
  | nil => rfl
  | cons a ws ih =>
    have ha := h a (by simp)
    cases ws with
    | nil => exact splitWhitespace_word ha.1 ha.2
    | cons b r =>
      rw [join_cons_cons, List.append_assoc, List.singleton_append,
        splitWhitespace_word_append ha.1 ha.2 (by decide), ih (fun w hw => h w (by simp [hw]))]

theorem noWs_no_space {w : Str} (h : NoWs w) : ' ' ∉ w := by
  intro hm
  have := h _ hm
  revert this
  decide

end Kms
