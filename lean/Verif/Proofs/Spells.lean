import Verif.Spec.Mnemonic
import Verif.Proofs.Mnemonic
/-
`split_whitespace` against its description by layout, and normalisation of a whole string.
-/
namespace Kms
open Spec

theorem isWhite_eq : isWhite = isWhitespace := by
  funext c
  rw [Bool.eq_iff_iff]
  simp [isWhite, whiteSpace, isWhitespace]
  omega

/-- `Spells` with the model's test for white space. -/
abbrev SpellsM : Str → List Str → Prop := SpellsWith isWhitespace

theorem splitWhitespace_lead (lead s : Str) (h : ∀ c ∈ lead, isWhitespace c = true) :
    splitWhitespace (lead ++ s) = splitWhitespace s := by
  induction lead with
  | nil => rfl
  | cons c cs ih =>
    rw [List.cons_append, splitWhitespace_ws_cons (h c (by simp)), ih (fun d hd => h d (by simp [hd]))]

theorem splitWhitespace_of_spells {s : Str} {ws : List Str} (h : SpellsM s ws) : splitWhitespace s = ws := by
  induction h with
  | blank lead h => have := splitWhitespace_lead lead [] h; simpa using this
  | last lead w trail h1 h2 h3 h4 =>
    rw [List.append_assoc, splitWhitespace_lead _ _ h1]
    cases trail with
    | nil => rw [List.append_nil]; exact splitWhitespace_word h2 h3
    | cons c r =>
      rw [splitWhitespace_word_append h2 h3 (h4 c (by simp))]
      have := splitWhitespace_lead r [] (fun d hd => h4 d (by simp [hd]))
      simp at this
      rw [this]
  | cons lead w c rest ws h1 h2 h3 h4 _ ih =>
    rw [List.append_assoc, splitWhitespace_lead _ _ h1, splitWhitespace_word_append h2 h3 h4, ih]

theorem spells_ws_cons {s : Str} {ws : List Str} {c : Char} (hc : isWhitespace c = true) (h : SpellsM s ws) :
    SpellsM (c :: s) ws := by
  have ext : ∀ lead : Str, (∀ d ∈ lead, isWhitespace d = true) → ∀ d ∈ c :: lead, isWhitespace d = true := by
    intro lead h d hd
    simp at hd
    rcases hd with rfl | hd
    · exact hc
    · exact h d hd
  cases h with
  | blank lead h => exact .blank _ (ext _ h)
  | last lead w trail h1 h2 h3 h4 => exact .last (c :: lead) w trail (ext _ h1) h2 h3 h4
  | cons lead w d rest ws h1 h2 h3 h4 h5 => exact .cons (c :: lead) w d rest ws (ext _ h1) h2 h3 h4 h5

theorem spells_splitWhitespace (s : Str) : SpellsM s (splitWhitespace s) := by
  induction hn : s.length using Nat.strongRecOn generalizing s with
  | _ n ih =>
    subst hn
    cases s with
    | nil => exact .blank [] (by simp)
    | cons c cs =>
      cases hc : isWhitespace c with
      | true =>
        rw [splitWhitespace_ws_cons hc]
        exact spells_ws_cons hc (ih cs.length (by simp) cs rfl)
      | false =>
        let w := (c :: cs).takeWhile (fun d => !isWhitespace d)
        let r := (c :: cs).dropWhile (fun d => !isWhitespace d)
        have hsplit : w ++ r = c :: cs := List.takeWhile_append_dropWhile
        have hw : ∀ d ∈ w, isWhitespace d = false := by
          intro d hd
          have := List.all_eq_true.mp (List.all_takeWhile (l := c :: cs) (p := fun d => !isWhitespace d)) d hd
          simpa using this
        have hwne : w ≠ [] := by simp [w, hc]
        cases hr : r with
        | nil =>
          rw [hr, List.append_nil] at hsplit
          rw [← hsplit, splitWhitespace_word hwne hw]
          have := SpellsWith.last [] w [] (by simp) hwne hw (by simp)
          simpa using this
        | cons d r' =>
          have hd : isWhitespace d = true := by
            have := List.head?_dropWhile_not (fun d => !isWhitespace d) (c :: cs)
            rw [show (c :: cs).dropWhile (fun d => !isWhitespace d) = d :: r' from hr] at this
            simpa using this
          rw [hr] at hsplit
          rw [← hsplit, splitWhitespace_word_append hwne hw hd]
          have hlen : r'.length < (c :: cs).length := by
            rw [← hsplit]; simp; omega
          have := SpellsWith.cons [] w d r' _ (by simp) hwne hw hd (ih _ hlen r' rfl)
          simpa using this

theorem spells_iff {s : Str} {ws : List Str} : Spells s ws ↔ splitWhitespace s = ws := by
  unfold Spells
  rw [isWhite_eq]
  exact ⟨splitWhitespace_of_spells, fun h => h ▸ spells_splitWhitespace s⟩

/-! ### normalising a whole string -/

/-- White space normalises to one white-space starter. -/
theorem decompose_ws {c : Char} (h : isWhitespace c = true) :
    ∃ d, decomposeCompatible c = [d] ∧ isWhitespace d = true ∧ combiningClass d = 0 := by
  have zero : ∀ d, isWhitespace d = true → combiningClass d = 0 := by
    intro d hd
    by_contra hne
    have := (combiningClass_pos hne).2.2
    simp [hd] at this
  unfold decomposeCompatible
  split
  · exact ⟨c, rfl, h, zero c h⟩
  · split
    · rename_i hh
      simp [isHangulSyllable] at hh
      simp [isWhitespace] at h
      omega
    · split
      · rename_i ds hl
        have hok := entry_ok (mem_of_lookup hl)
        simp only [entryOk, Bool.and_eq_true] at hok
        have h3 := hok.2
        rw [Char.ofNat_toNat, if_pos h] at h3
        simp at h3
        subst h3
        exact ⟨' ', by decide, by decide, zero _ (by decide)⟩
      · exact ⟨c, rfl, h, zero c h⟩

theorem nfkd_append_ws {c : Char} (h : isWhitespace c = true) (a b : Str) :
    ∃ d, isWhitespace d = true ∧ nfkd (a ++ c :: b) = nfkd a ++ d :: nfkd b := by
  obtain ⟨d, h1, h2, h3⟩ := decompose_ws h
  refine ⟨d, h2, ?_⟩
  simp only [nfkd, List.flatMap_append, List.flatMap_cons, h1]
  exact reorder_append_starter h3 [] _ _

theorem nfkd_blank {s : Str} (h : ∀ c ∈ s, isWhitespace c = true) : ∀ c ∈ nfkd s, isWhitespace c = true := by
  intro c hc
  obtain ⟨d, hd, hcd⟩ := mem_nfkd.mp hc
  obtain ⟨e, h1, h2, _⟩ := decompose_ws (h d hd)
  rw [h1] at hcd
  simp at hcd
  rw [hcd]; exact h2

theorem nfkd_lead {lead : Str} (h : ∀ c ∈ lead, isWhitespace c = true) (s : Str) :
    ∃ lead', (∀ c ∈ lead', isWhitespace c = true) ∧ nfkd (lead ++ s) = lead' ++ nfkd s := by
  induction lead with
  | nil => exact ⟨[], by simp, rfl⟩
  | cons c cs ih =>
    obtain ⟨l', h1, h2⟩ := ih (fun d hd => h d (by simp [hd]))
    obtain ⟨d, hd, he⟩ := nfkd_append_ws (h c (by simp)) [] (cs ++ s)
    refine ⟨d :: l', ?_, ?_⟩
    · intro x hx
      simp at hx
      rcases hx with rfl | hx
      · exact hd
      · exact h1 x hx
    · simp at he
      rw [List.cons_append, he, h2]; rfl

theorem decompose_ne_nil (c : Char) : decomposeCompatible c ≠ [] := by
  unfold decomposeCompatible
  split
  · simp
  · split
    · simp only [decomposeHangul]; split <;> simp
    · split
      · rename_i ds hl
        have hok := entry_ok (mem_of_lookup hl)
        simp [entryOk] at hok
        simp [hok]
      · simp

theorem nfkd_ne_nil {w : Str} (h : w ≠ []) : nfkd w ≠ [] := by
  intro e
  have := (nfkd_perm w).length_eq
  rw [e] at this
  cases w with
  | nil => exact h rfl
  | cons c cs =>
    simp at this
    exact decompose_ne_nil c (List.length_eq_zero_iff.mp (by omega))

/-- If no piece turns into something with white space in it, normalising the string normalises its pieces. -/
theorem spells_nfkd {s : Str} {ws : List Str} (h : SpellsM s ws) (hws : ∀ w ∈ ws, NoWs (nfkd w)) :
    SpellsM (nfkd s) (ws.map nfkd) := by
  induction h with
  | blank lead h => exact .blank _ (nfkd_blank h)
  | last lead w trail h1 h2 h3 h4 =>
    obtain ⟨lead', l1, l2⟩ := nfkd_lead h1 (w ++ trail)
    rw [List.append_assoc, l2]
    cases trail with
    | nil =>
      have := SpellsWith.last lead' (nfkd w) [] l1 (nfkd_ne_nil h2) (hws w (by simp)) (by simp)
      simpa using this
    | cons c r =>
      obtain ⟨d, hd, he⟩ := nfkd_append_ws (h4 c (by simp)) w r
      rw [he, ← List.append_assoc]
      apply SpellsWith.last lead' (nfkd w) _ l1 (nfkd_ne_nil h2) (hws w (by simp))
      intro x hx
      simp at hx
      rcases hx with rfl | hx
      · exact hd
      · exact nfkd_blank (fun y hy => h4 y (by simp [hy])) x hx
  | cons lead w c rest ws h1 h2 h3 h4 h5 ih =>
    obtain ⟨lead', l1, l2⟩ := nfkd_lead h1 (w ++ c :: rest)
    obtain ⟨d, hd, he⟩ := nfkd_append_ws h4 w rest
    rw [List.append_assoc, l2, he, ← List.append_assoc]
    exact .cons lead' (nfkd w) d _ _ l1 (nfkd_ne_nil h2) (hws w (by simp)) hd (ih (fun v hv => hws v (by simp [hv])))

theorem mem_of_spells {s : Str} {ws : List Str} (h : SpellsM s ws) {c : Char} (hc : isWhitespace c = false) :
    c ∈ s ↔ ∃ w ∈ ws, c ∈ w := by
  induction h with
  | blank lead h =>
    simp
    intro hm
    simp [h c hm] at hc
  | last lead w trail h1 h2 h3 h4 =>
    simp
    constructor
    · rintro (h | h | h)
      · simp [h1 c h] at hc
      · exact h
      · simp [h4 c h] at hc
    · intro h; exact .inr (.inl h)
  | cons lead w d rest ws h1 h2 h3 h4 h5 ih =>
    simp [ih]
    constructor
    · rintro (h | h | h | h)
      · simp [h1 c h] at hc
      · exact .inl h
      · subst h; simp [h4] at hc
      · exact .inr h
    · rintro (h | h)
      · exact .inr (.inl h)
      · exact .inr (.inr (.inr h))

end Kms
