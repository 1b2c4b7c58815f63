import Verif.Spec.Mnemonic
import Verif.Proofs.Search
import Mathlib.Data.List.Nodup
import Mathlib.Data.List.TakeWhile
/-
Properties C11, C12, C13, C15, C16, C64: word lists, prefix search, language codes, mnemonic types.
-/
namespace Kms.Props
open Kms.Bip39 Kms.Bip39.Language

theorem words_eq' (l : Language) : l.wordlist = Spec.words l := by
  cases l
  · exact wordlist_english
  · exact wordlist_chinese

/-- C11. The list has 2048 distinct words; `get_bits` answers `Ok(i)` on a string exactly when the string is
the `i`-th word, and `InvalidWord` on every string that is not a word; `get_word` returns the `i`-th word for
every index below 2048 and panics on every other `u16`; the two are mutually inverse. -/
theorem C11_wordlist_bijection (l : Language) :
    (Spec.words l).length = 2048 ∧ (Spec.words l).Nodup ∧
    (∀ (w : Str) (b : BitVec 16), getBits l.wordmap w = .ok b ↔ (Spec.words l)[b.toNat]? = some w) ∧
    (∀ (w : Str), getBits l.wordmap w = .err .invalidWord ↔ w ∉ Spec.words l) ∧
    (∀ (w : Str), w ∈ Spec.words l → ∃ b : BitVec 16, b.toNat < 2048 ∧ getBits l.wordmap w = .ok b) ∧
    (∀ (w : Str) (b : BitVec 16), getWord l.wordlist b = .ok w ↔ (Spec.words l)[b.toNat]? = some w) ∧
    (∀ (b : BitVec 16), getWord l.wordlist b = .panic ↔ 2048 ≤ b.toNat) ∧
    (∀ (w : Str) (b : BitVec 16), getWord l.wordlist b = .ok w ↔ getBits l.wordmap w = .ok b) := by
  rw [← words_eq']
  have hlen := wordlist_length l
  have hb : ∀ (w : Str) (b : BitVec 16), getBits l.wordmap w = .ok b ↔ l.wordlist[b.toNat]? = some w := by
    intro w b
    exact getBits_eq_ok_iff l w b
  have hw : ∀ (w : Str) (b : BitVec 16), getWord l.wordlist b = .ok w ↔ l.wordlist[b.toNat]? = some w :=
    fun w b => getWord_eq_ok_iff l b w
  refine ⟨hlen, wordlist_nodup l, hb, ?_, ?_, hw, ?_, ?_⟩
  · intro w
    rw [getBits_eq_err_iff]; simp
  · intro w h
    have := (getBits_isOk_iff l w).mpr h
    cases hg : getBits l.wordmap w with
    | ok b =>
      refine ⟨b, ?_, rfl⟩
      obtain ⟨hlt, -⟩ := List.getElem?_eq_some_iff.mp ((hb w b).mp hg)
      omega
    | err e => rw [hg] at this; simp [Res.isOk] at this
    | panic => rw [hg] at this; simp [Res.isOk] at this
  · intro b
    unfold getWord
    by_cases h : b.toNat < 2048
    · rw [List.getElem?_eq_getElem (by omega)]; simp; omega
    · rw [List.getElem?_eq_none (by omega)]; simp; omega
  · intro w b
    rw [hw, hb]

-- a word, a text that is no word, the last number and the first one that is too large
example : getBits (wordmap .english) "zoo".toList = .ok 2047#16 ∧ getBits (wordmap .english) "zoos".toList = .err .invalidWord ∧
    getWord (wordlist .english) 2047#16 = .ok "zoo".toList ∧ getWord (wordlist .english) 2048#16 = .panic := by
  refine ⟨((C11_wordlist_bijection .english).2.2.1 _ _).mpr (by decide +kernel),
    ((C11_wordlist_bijection .english).2.2.2.1 _).mpr (by decide +kernel),
    ((C11_wordlist_bijection .english).2.2.2.2.2.1 _ _).mpr (by decide +kernel),
    ((C11_wordlist_bijection .english).2.2.2.2.2.2.1 _).mpr (by decide)⟩

theorem mem_takeWhile {α : Type} {p : α → Bool} {l : List α} {a : α} (h : a ∈ l.takeWhile p) : p a = true := by
  induction l with
  | nil => simp at h
  | cons b l ih =>
    rw [List.takeWhile_cons] at h
    split at h
    · rename_i hb
      rcases List.mem_cons.mp h with rfl | h
      · exact hb
      · exact ih h
    · simp at h

/-- C12. For every query the English search returns exactly the list words that start with it, in list order,
and does not panic.  It holds for every implementation of the standard library's `binary_search` that meets its
documented contract on sorted slices, in particular for the two that have shipped. -/
theorem C12_english_prefix_search (q : Str) :
    (∀ search, SearchContract search → getWordsByPrefix search (wordlist .english) q =
      .ok ((Spec.words .english).filter (fun w => decide (q <+: w)))) ∧
    getWordsByPrefix binarySearch (wordlist .english) q =
      .ok ((Spec.words .english).filter (fun w => decide (q <+: w))) ∧
    getWordsByPrefix binarySearch' (wordlist .english) q =
      .ok ((Spec.words .english).filter (fun w => decide (q <+: w))) := by
  have key : ∀ search, SearchContract search → getWordsByPrefix search (wordlist .english) q =
      .ok ((Spec.words .english).filter (fun w => decide (q <+: w))) := by
    intro search hc
    have := getWordsByPrefix_sorted search hc (wordlist .english)
      (by rw [wordlist_english]; exact english_pairwise) q
    rw [this, words_eq']
    congr 1
    apply List.filter_congr
    intro w _
    rw [Bool.eq_iff_iff, List.isPrefixOf_iff_prefix, decide_eq_true_iff]
  exact ⟨key, key _ binarySearch_contract, key _ binarySearch'_contract⟩

/-- "aban" finds one word, "ab" several. -/
example : getWordsByPrefix binarySearch (wordlist .english) "aban".toList = .ok ["abandon".toList] := by
  rw [(C12_english_prefix_search _).2.1]; decide +kernel
example : getWordsByPrefix binarySearch' (wordlist .english) "zo".toList = .ok ["zone".toList, "zoo".toList] := by
  rw [(C12_english_prefix_search _).2.2]; decide +kernel

/-- C13 is false: 的 is the first word of the Chinese list, yet searching for it finds nothing, whichever of the
two shipped `binary_search` loops is used. -/
theorem C13_chinese_prefix_search_fails :
    ['的'] ∈ Spec.words .chineseSimplified ∧ ['的'] <+: ['的'] ∧
    getWordsByPrefix binarySearch (wordlist .chineseSimplified) ['的'] = .ok [] ∧
    getWordsByPrefix binarySearch' (wordlist .chineseSimplified) ['的'] = .ok [] := by
  rw [wordlist_chinese]
  refine ⟨?_, List.prefix_rfl, ?_, ?_⟩
  · decide +kernel
  · decide +kernel
  · decide +kernel

/-- The search never panics, the answer is a contiguous
stretch of the list in list order, every word in it starts with the query, the answer is exact for every query that
is not itself a list word (the empty one included), and for a list word it is the word alone or nothing. -/
theorem chinese_search_shape (search : WordList → Str → Nat ⊕ Nat)
    (hs : search = binarySearch ∨ search = binarySearch') (q : Str) :
    ∃ r, getWordsByPrefix search (wordlist .chineseSimplified) q = .ok r ∧
      r <:+: Spec.words .chineseSimplified ∧
      (∀ w ∈ r, q <+: w) ∧
      (q ∉ Spec.words .chineseSimplified →
        r = (Spec.words .chineseSimplified).filter (fun w => decide (q <+: w))) ∧
      (q ∈ Spec.words .chineseSimplified → r = [] ∨ r = [q]) := by
  have hle : unwrapOrElseId (search (wordlist .chineseSimplified) q) ≤ (wordlist .chineseSimplified).length := by
    rcases hs with rfl | rfl
    · exact binarySearch_le _ _
    · exact binarySearch'_le _ _
  have hr := getWordsByPrefix_eq search _ q _ rfl hle
  refine ⟨_, hr, ?_, ?_, ?_, ?_⟩
  · rw [words_eq']
    exact (List.takeWhile_prefix _).isInfix.trans (List.drop_suffix _ _).isInfix
  · intro w hw
    exact List.isPrefixOf_iff_prefix.mp (mem_takeWhile hw)
  · intro hq
    by_cases hne : q = []
    · subst hne
      have h0 : unwrapOrElseId (search (wordlist .chineseSimplified) []) = 0 := by
        rw [wordlist_chinese]
        rcases hs with rfl | rfl
        · decide +kernel
        · decide +kernel
      rw [h0, ← words_eq', List.drop_zero, List.takeWhile_eq_self_iff.2 (by simp), List.filter_eq_self.2 (by simp)]
    rw [words_eq']
    have none : ∀ w ∈ Spec.words .chineseSimplified, ¬ q <+: w := by
      intro w hw hp
      obtain ⟨c, rfl, -⟩ := chinese_word hw
      cases q with
      | nil => exact hne rfl
      | cons d q =>
        rw [List.cons_prefix_cons] at hp
        obtain ⟨rfl, hp⟩ := hp
        rw [List.prefix_nil] at hp
        subst hp
        exact hq hw
    rw [List.filter_eq_nil_iff.mpr (by intro w hw; simpa using none w hw)]
    rw [List.eq_nil_iff_forall_not_mem]
    intro w hw
    have h1 := List.isPrefixOf_iff_prefix.mp (mem_takeWhile hw)
    have h2 : w ∈ Spec.words .chineseSimplified := by
      have := (List.takeWhile_prefix _).subset hw
      exact List.mem_of_mem_drop this
    exact none w h2 h1
  · intro hq
    have hnd : (((wordlist .chineseSimplified).drop
        (unwrapOrElseId (search (wordlist .chineseSimplified) q))).takeWhile (fun w => q.isPrefixOf w)).Nodup :=
      (wordlist_nodup _).sublist ((List.takeWhile_prefix _).sublist.trans (List.drop_sublist _ _))
    have hall : ∀ w ∈ ((wordlist .chineseSimplified).drop
        (unwrapOrElseId (search (wordlist .chineseSimplified) q))).takeWhile (fun w => q.isPrefixOf w), w = q := by
      intro w hw
      have h1 := List.isPrefixOf_iff_prefix.mp (mem_takeWhile hw)
      have h2 : w ∈ wordlist .chineseSimplified := List.mem_of_mem_drop ((List.takeWhile_prefix _).subset hw)
      rw [words_eq'] at h2
      obtain ⟨c, rfl, -⟩ := chinese_word h2
      obtain ⟨d, rfl, -⟩ := chinese_word hq
      rw [List.cons_prefix_cons] at h1
      rw [h1.1]
    generalize ((wordlist .chineseSimplified).drop
        (unwrapOrElseId (search (wordlist .chineseSimplified) q))).takeWhile (fun w => q.isPrefixOf w) = r at hnd hall
    match r, hnd, hall with
    | [], _, _ => exact .inl rfl
    | [a], _, hall => rw [hall a (by simp)]; exact .inr rfl
    | a :: b :: r, hnd, hall =>
      have e : a = b := (hall a (by simp)).trans (hall b (by simp)).symm
      rw [e] at hnd
      simp at hnd

-- a Chinese word that is found, and a text that is not a word
example : getWordsByPrefix binarySearch (wordlist .chineseSimplified) ['一'] = .ok [['一']] ∧
    getWordsByPrefix binarySearch (wordlist .chineseSimplified) "ab".toList = .ok [] := by
  rw [wordlist_chinese]
  decide +kernel

theorem english_four : chainLt (Data.english.map (·.take 4)) = true := by decide +kernel
theorem english_lengths : (Data.english.all fun w => 3 ≤ w.length && w.length ≤ 8) = true := by decide +kernel

/-- C64. An English word is known from its first four letters: no two words share them, and searching for the first
four letters (or more) of a word that has so many finds the word and nothing else.  Words have 3 to 8 letters. -/
theorem C64_english_four_letters :
    (∀ w ∈ Spec.words .english, 3 ≤ w.length ∧ w.length ≤ 8) ∧
    (∀ w ∈ Spec.words .english, ∀ w' ∈ Spec.words .english, w.take 4 = w'.take 4 → w = w') ∧
    (∀ search, SearchContract search → ∀ w ∈ Spec.words .english, ∀ j, 4 ≤ j → 4 ≤ w.length →
      getWordsByPrefix search (wordlist .english) (w.take j) = .ok [w]) := by
  have hnd : (Data.english.map (·.take 4)).Nodup :=
    (chainLt_sound _ english_four).imp (fun {a b} h e => by subst e; rw [strCmp_self] at h; simp at h)
  have inj : ∀ w ∈ Spec.words .english, ∀ w' ∈ Spec.words .english, w.take 4 = w'.take 4 → w = w' :=
    List.inj_on_of_nodup_map hnd
  refine ⟨?_, inj, ?_⟩
  · intro w hw
    have := List.all_eq_true.mp english_lengths w hw
    simpa using this
  · intro search hc w hw j hj h4
    rw [(C12_english_prefix_search _).1 search hc]
    congr 1
    have hf : ∀ w' ∈ Spec.words .english, decide (w.take j <+: w') = decide (w' = w) := by
      intro w' hw'
      rw [decide_eq_decide]
      constructor
      · intro hp
        apply inj w' hw' w hw
        obtain ⟨t, ht⟩ := hp
        rw [← ht, List.take_append_of_le_length (by rw [List.length_take]; omega), List.take_take, Nat.min_eq_left hj]
      · rintro rfl
        exact List.take_prefix _ _
    rw [List.filter_congr hf]
    exact (List.filter_eq (l := Spec.words .english) w).trans (by
      rw [List.count_eq_one_of_mem (l := Spec.words .english) english_nodup hw]; rfl)

/-- "acti" is enough for "action"; "act" itself also starts "action", "actor", "actress" and "actual". -/
example : getWordsByPrefix binarySearch (wordlist .english) "acti".toList = .ok ["action".toList] :=
  C64_english_four_letters.2.2 binarySearch binarySearch_contract "action".toList (by decide +kernel) 4 (by decide) (by decide)

/-- Two characters equal up to ASCII case: the same, or one is a letter `A`-`Z` (65 to 90) and the other its
lower case (32 further on). -/
def SameLetter (c d : Char) : Prop :=
  c = d ∨ (65 ≤ c.toNat ∧ c.toNat ≤ 90 ∧ d.toNat = c.toNat + 32) ∨ (65 ≤ d.toNat ∧ d.toNat ≤ 90 ∧ c.toNat = d.toNat + 32)

theorem asciiLower_toNat (c : Char) :
    (asciiLowerChar c).toNat = if 65 ≤ c.toNat ∧ c.toNat ≤ 90 then c.toNat + 32 else c.toNat := by
  unfold asciiLowerChar
  split
  · rw [Char.ofNat, dif_pos (by unfold Nat.isValidChar; omega)]; rfl
  · rfl

theorem asciiLower_eq_iff (c d : Char) (hd : ¬ (65 ≤ d.toNat ∧ d.toNat ≤ 90)) :
    asciiLowerChar c = d ↔ SameLetter c d := by
  unfold SameLetter
  rw [← Char.toNat_inj, asciiLower_toNat, ← Char.toNat_inj]
  split <;> omega

theorem asciiLower_congr {c d : Char} (h : SameLetter c d) : asciiLowerChar c = asciiLowerChar d := by
  unfold SameLetter at h
  rw [← Char.toNat_inj] at h
  rw [← Char.toNat_inj, asciiLower_toNat, asciiLower_toNat]
  split <;> split <;> omega

theorem sameLetters_iff (a b : Str) (hb : ∀ d ∈ b, ¬ (65 ≤ d.toNat ∧ d.toNat ≤ 90)) :
    toAsciiLowercase a = b ↔ List.Forall₂ SameLetter a b := by
  unfold toAsciiLowercase
  induction a generalizing b with
  | nil => cases b <;> simp
  | cons c a ih =>
    cases b with
    | nil => simp
    | cons d b =>
      simp only [List.map_cons, List.cons.injEq, List.forall₂_cons]
      rw [asciiLower_eq_iff c d (hb d (by simp)), ih b (fun d hd => hb d (by simp [hd]))]

/-- C15. The code `en`, in any ASCII case, gives English, `zh-cn` in any ASCII case gives ChineseSimplified, every
other string gives `None`; so codes equal up to ASCII case are treated alike. -/
theorem C15_language_codes (code : Str) :
    (fromLanguageCode code = some .english ↔ List.Forall₂ SameLetter code "en".toList) ∧
    (fromLanguageCode code = some .chineseSimplified ↔ List.Forall₂ SameLetter code "zh-cn".toList) ∧
    (fromLanguageCode code = none ↔
      ¬ List.Forall₂ SameLetter code "en".toList ∧ ¬ List.Forall₂ SameLetter code "zh-cn".toList) ∧
    (∀ code', List.Forall₂ SameLetter code code' → fromLanguageCode code = fromLanguageCode code') := by
  rw [← sameLetters_iff code "en".toList (by decide), ← sameLetters_iff code "zh-cn".toList (by decide)]
  have e1 : "en".toList = ['e', 'n'] := rfl
  have e2 : "zh-cn".toList = ['z', 'h', '-', 'c', 'n'] := rfl
  rw [e1, e2]
  refine ⟨?_, ?_, ?_, ?_⟩
  · unfold fromLanguageCode
    split
    · simp_all
    · split <;> simp_all
  · unfold fromLanguageCode
    split
    · simp_all
    · split <;> simp_all
  · unfold fromLanguageCode
    split
    · simp_all
    · split <;> simp_all
  · intro code' h
    have : toAsciiLowercase code = toAsciiLowercase code' := by
      unfold toAsciiLowercase
      induction h with
      | nil => rfl
      | cons hc _ ih => rw [List.map_cons, List.map_cons, asciiLower_congr hc, ih]
    unfold fromLanguageCode
    rw [this]

example : fromLanguageCode "Zh-CN".toList = some .chineseSimplified := by decide
example : fromLanguageCode "fr".toList = none := by decide

/-- C16. `for_word_count(n)` and `for_key_size(n)` succeed exactly on the word counts and entropy sizes of the
five BIP39 types and return that type, otherwise they report the bad number; the entropy size is one of
128, 160, 192, 224, 256, the checksum has one bit per 32 bits of entropy, and the words carry 11 bits each. -/
theorem C16_mnemonic_types :
    (∀ n t, MnemonicType.forWordCount n = .ok t ↔ t.wordCount = n) ∧
    (∀ n t, MnemonicType.forKeySize n = .ok t ↔ t.entropyBits = n) ∧
    (∀ n, n ∉ [12, 15, 18, 21, 24] → MnemonicType.forWordCount n = .err (.invalidWordLength n)) ∧
    (∀ n, n ∉ [128, 160, 192, 224, 256] → MnemonicType.forKeySize n = .err (.invalidKeysize n)) ∧
    (∀ t : MnemonicType, (t.wordCount, t.entropyBits) ∈ [(12, 128), (15, 160), (18, 192), (21, 224), (24, 256)] ∧
      t.checksumBits = t.entropyBits / 32 ∧ t.totalBits = t.entropyBits + t.entropyBits / 32 ∧
      t.totalBits = 11 * t.wordCount) ∧
    (∀ n, n ∈ [12, 15, 18, 21, 24] → ∃ t, MnemonicType.forWordCount n = .ok t) ∧
    (∀ n, n ∈ [128, 160, 192, 224, 256] → ∃ t, MnemonicType.forKeySize n = .ok t) := by
  refine ⟨?_, ?_, ?_, ?_, ?_, ?_, ?_⟩
  · intro n t
    constructor
    · unfold MnemonicType.forWordCount
      split <;> simp <;> intro h <;> subst h <;> decide
    · rintro rfl
      cases t <;> decide
  · intro n t
    constructor
    · unfold MnemonicType.forKeySize
      split <;> simp <;> intro h <;> subst h <;> decide
    · rintro rfl
      cases t <;> decide
  · intro n h
    unfold MnemonicType.forWordCount
    split <;> simp_all
  · intro n h
    unfold MnemonicType.forKeySize
    split <;> simp_all
  · intro t
    cases t <;> decide
  · intro n h
    simp only [List.mem_cons, List.not_mem_nil, or_false] at h
    rcases h with rfl | rfl | rfl | rfl | rfl <;> exact ⟨_, rfl⟩
  · intro n h
    simp only [List.mem_cons, List.not_mem_nil, or_false] at h
    rcases h with rfl | rfl | rfl | rfl | rfl <;> exact ⟨_, rfl⟩

example : MnemonicType.forWordCount 21 = .ok .words21 ∧ MnemonicType.forWordCount 13 = .err (.invalidWordLength 13) ∧
    MnemonicType.forKeySize 224 = .ok .words21 := by decide

end Kms.Props
