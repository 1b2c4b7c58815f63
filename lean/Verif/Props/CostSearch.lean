import Verif.Proofs.CostSearch
import Verif.Props.Language
/-
C121: searching words and detecting a language take few steps, whatever the text asked for.
-/
namespace Kms.Props
open Kms Kms.Bip39 Kms.Bip39.Language

/-- **C121** Searching any list of at most `2^j` words of at most `L` characters each, sorted or not, for any query: the counted
search returns what the search returns, never panics, and looks at no more than `j + 1` words to find the place and at one word
more than it answers after that, comparing at most `L` characters each; so its steps do not grow with the query.  With
either of the standard library's binary searches. -/
theorem C121_search_any_list (wl : WordList) (j L : Nat) (hj : wl.length ≤ 2 ^ j) (hL : ∀ w ∈ wl, w.length ≤ L) (q : Str) :
    ((getWordsByPrefixC binarySearchC wl q).val = getWordsByPrefix binarySearch wl q ∧
      ∃ ws, getWordsByPrefix binarySearch wl q = .ok ws ∧
        (getWordsByPrefixC binarySearchC wl q).steps ≤ (L + 1) * (j + 1 + (ws.length + 1))) ∧
    ((getWordsByPrefixC binarySearchC' wl q).val = getWordsByPrefix binarySearch' wl q ∧
      ∃ ws, getWordsByPrefix binarySearch' wl q = .ok ws ∧
        (getWordsByPrefixC binarySearchC' wl q).steps ≤ (L + 1) * (j + 1 + (ws.length + 1))) := by
  have e1 : (fun wl p => (binarySearchC wl p).val) = binarySearch := funext fun _ => funext fun _ => binarySearchC_val _ _
  have e2 : (fun wl p => (binarySearchC' wl p).val) = binarySearch' := funext fun _ => funext fun _ => binarySearchC'_val _ _
  have v1 := getWordsByPrefixC_val binarySearchC wl q
  have v2 := getWordsByPrefixC_val binarySearchC' wl q
  rw [e1] at v1
  rw [e2] at v2
  refine ⟨⟨v1, ?_⟩, v2, ?_⟩
  · rw [← v1]
    simp only [Nat.mul_add (L + 1) (j + 1)]
    exact getWordsByPrefixC_steps hL (binarySearchC_steps hL q j hj)
      (by rw [binarySearchC_val]; exact binarySearch_le _ _)
  · rw [← v2]
    simp only [Nat.mul_add (L + 1) (j + 1)]
    exact getWordsByPrefixC_steps hL (binarySearchC'_steps hL q j hj)
      (by rw [binarySearchC'_val]; exact binarySearch'_le _ _)

theorem chinese_one_char : (Data.chineseSimplified.all fun w => w.length ≤ 1) = true := by decide +kernel

/-- **C121** In the English list a search takes at most 9 steps for each word of the answer and 117 more, in the Chinese one 2 and
26, however long the query. -/
theorem C121_search_steps (l : Language) (q : Str) (searchC : WordList → Str → Counted (Nat ⊕ Nat))
    (search : WordList → Str → Nat ⊕ Nat)
    (hs : searchC = binarySearchC ∧ search = binarySearch ∨ searchC = binarySearchC' ∧ search = binarySearch') :
    (getWordsByPrefixC searchC l.wordlist q).val = getWordsByPrefix search l.wordlist q ∧
    ∃ ws, getWordsByPrefix search l.wordlist q = .ok ws ∧
      (getWordsByPrefixC searchC l.wordlist q).steps ≤
        match l with
        | .english => 9 * ws.length + 117
        | .chineseSimplified => 2 * ws.length + 26 := by
  have key : ∀ L, (∀ w ∈ l.wordlist, w.length ≤ L) →
      (getWordsByPrefixC searchC l.wordlist q).val = getWordsByPrefix search l.wordlist q ∧
      ∃ ws, getWordsByPrefix search l.wordlist q = .ok ws ∧
        (getWordsByPrefixC searchC l.wordlist q).steps ≤ (L + 1) * (11 + 1 + (ws.length + 1)) := by
    intro L hL
    have h := C121_search_any_list l.wordlist 11 L (by rw [wordlist_length]; norm_num) hL q
    rcases hs with ⟨rfl, rfl⟩ | ⟨rfl, rfl⟩
    · exact h.1
    · exact h.2
  cases l with
  | english =>
    obtain ⟨hv, ws, hw, hst⟩ := key 8 (fun w hw => by
      rw [words_eq'] at hw
      exact (C64_english_four_letters.1 w hw).2)
    exact ⟨hv, ws, hw, by simp only; omega⟩
  | chineseSimplified =>
    obtain ⟨hv, ws, hw, hst⟩ := key 1 (fun w hw => by
      rw [words_eq'] at hw
      simpa using List.all_eq_true.mp chinese_one_char w hw)
    exact ⟨hv, ws, hw, by simp only; omega⟩

/-- **C121** Detecting the language of a text takes at most three steps per byte, and what comes after the first word is not
looked at. -/
theorem C121_detection_steps (text : Str) :
    (Language.fromPhraseC text).val = Language.fromPhrase text ∧
    (Language.fromPhraseC text).steps ≤ 3 * (utf8 text).length ∧
    (∀ lead word c rest, text = lead ++ word ++ c :: rest → (∀ d ∈ lead, isWhitespace d = true) → word ≠ [] →
      (∀ d ∈ word, isWhitespace d = false) → isWhitespace c = true →
      (Language.fromPhraseC text).steps ≤ lead.length + word.length + 1 + 2 * (utf8 word).length ∧
      ∀ rest', Language.fromPhraseC (lead ++ word ++ c :: rest') = Language.fromPhraseC text) := by
  have hval : (Language.fromPhraseC text).val = Language.fromPhrase text := by
    unfold Language.fromPhraseC Language.fromPhrase
    rw [Counted.val_bind, firstWordC_val]
    cases splitWhitespace text with
    | nil => rfl
    | cons w ws =>
      simp only [List.head?_cons, Counted.val_bind]
      split
      · rfl
      · rw [Counted.val_bind]
        split <;> rfl
  have hsteps : ∀ t : Str, ∀ B, (∀ w, (firstWordC t).val = some w → (utf8 w).length ≤ B) →
      (Language.fromPhraseC t).steps ≤ (firstWordC t).steps + 2 * B := by
    intro t B hB
    unfold Language.fromPhraseC
    rw [Counted.steps_bind]
    cases h : (firstWordC t).val with
    | none => simp
    | some w =>
      have := hB w h
      simp only [Counted.steps_bind, Counted.steps_ticks]
      split
      · simp only [Counted.steps_pure]; omega
      · simp only [Counted.steps_bind, Counted.steps_ticks]
        split <;> simp only [Counted.steps_pure] <;> omega
  refine ⟨hval, ?_, ?_⟩
  · have h1 := firstWordC_steps text
    have h2 := utf8_length_ge text
    have h3 := hsteps text (utf8 text).length (firstWordC_bytes text)
    omega
  · rintro lead word c rest rfl hl hne hw hc
    have e := firstWordC_append hl hne hw hc
    refine ⟨?_, fun rest' => ?_⟩
    · have := hsteps (lead ++ word ++ c :: rest) (utf8 word).length (fun w h => by
        rw [e] at h
        obtain rfl : word = w := Option.some.inj h
        exact Nat.le_refl _)
      rw [e] at this
      exact this
    · unfold Language.fromPhraseC
      rw [e, e]

/-! ### Cases -/

/-- Looking for `zo` takes 31 steps: 11 words and 13 characters compared in the search, then `zone`, `zoo` and no word more. -/
example : (getWordsByPrefixC binarySearchC (wordlist .english) "zo".toList).steps = 31 := by
  rw [words_eq']; decide +kernel

/-- The bound 26 is reached: the newer search compares 的 with 12 words and answers nothing after one word more. -/
example : (getWordsByPrefixC binarySearchC' (wordlist .chineseSimplified) ['的']).steps = 26 := by
  rw [words_eq']; decide +kernel

/-- Ten characters up to the space after the first word, and its seven bytes hashed once; not the rest of the text. -/
example (rest : Str) : (Language.fromPhraseC ("  abandon".toList ++ ' ' :: rest)).steps = 17 := by
  have h := (C121_detection_steps ("  abandon".toList ++ ' ' :: [])).2.2 "  ".toList "abandon".toList ' ' [] rfl
    (by decide) (by decide) (by decide) (by decide)
  rw [show "  abandon".toList ++ ' ' :: rest = "  ".toList ++ "abandon".toList ++ ' ' :: rest from rfl, h.2 rest]
  have hw : (getBits english.wordmap "abandon".toList).isOk = true := by decide +kernel
  unfold Language.fromPhraseC
  rw [show "  abandon".toList ++ ' ' :: [] = "  ".toList ++ "abandon".toList ++ ' ' :: [] from rfl,
    firstWordC_append (by decide) (by decide) (by decide) (by decide)]
  simp only [Counted.steps_bind, Counted.steps_ticks]
  rw [if_pos hw]
  decide +kernel

end Kms.Props
