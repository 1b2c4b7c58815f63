import Verif.Proofs.AllWordsDistinct
import Verif.Spec.AllLanguages
import Verif.Proofs.Nfkd
import Verif.Proofs.Search
/-
Facts about the eight word lists, each checked over whole lists and tables by the kernel.
-/
namespace Kms.Bip39.All
open Language
-- one check at a time, to bound the memory
set_option Elab.async false

/-! ### letters -/

/-- Hangul jamo -/
def isJamo (c : Char) : Bool := 0x1100 ≤ c.toNat && c.toNat ≤ 0x11FF

/-- the hiragana that no table decomposes, as a bit set from U+3041 -/
def kanaBits : Nat :=
  [0x3041, 0x3042, 0x3043, 0x3044, 0x3045, 0x3046, 0x3047, 0x3048, 0x3049, 0x304a, 0x304b, 0x304d, 0x304f, 0x3051, 0x3053,
   0x3055, 0x3057, 0x3059, 0x305b, 0x305d, 0x305f, 0x3061, 0x3063, 0x3064, 0x3066, 0x3068, 0x306a, 0x306b, 0x306c, 0x306d,
   0x306e, 0x306f, 0x3072, 0x3075, 0x3078, 0x307b, 0x307e, 0x307f, 0x3080, 0x3081, 0x3082, 0x3083, 0x3084, 0x3085, 0x3086,
   0x3087, 0x3088, 0x3089, 0x308a, 0x308b, 0x308c, 0x308d, 0x308e, 0x308f, 0x3090, 0x3091, 0x3092, 0x3093, 0x3095,
   0x3096].foldl (fun s n => s ||| 2 ^ (n - 0x3041)) 0

/-- hiragana without voicing mark -/
def isKanaN (n : Nat) : Bool := 0x3041 ≤ n && n ≤ 0x3096 && kanaBits.testBit (n - 0x3041)

/-- a character that begins a word or stands in it by itself -/
def isLetter (c : Char) : Bool := isLowerLatin c || isHan c || isJamo c || isKanaN c.toNat

/-- the accents and voicing marks that occur in words -/
def isMarkN (n : Nat) : Bool := n == 0x300 || n == 0x301 || n == 0x303 || n == 0x3099 || n == 0x309a

/-- letters, each with at most one mark; `p`: the last character was a mark -/
def restOk (p : Bool) : Str → Bool
  | [] => true
  | c :: cs => (isLetter c && restOk false cs) || (isMarkN c.toNat && !p && restOk true cs)

def wordOk : Str → Bool
  | [] => false
  | c :: cs => isLetter c && restOk false cs

theorem english_ok : Data.english.all wordOk = true := by decide +kernel
theorem simplified_ok : Data.chineseSimplified.all wordOk = true := by decide +kernel
theorem traditional_ok : Data.chineseTraditional.all wordOk = true := by decide +kernel
theorem french_ok : Data.french.all wordOk = true := by decide +kernel
theorem italian_ok : Data.italian.all wordOk = true := by decide +kernel
theorem japanese_ok : Data.japanese.all wordOk = true := by decide +kernel
theorem korean_ok : Data.korean.all wordOk = true := by decide +kernel
theorem spanish_ok : Data.spanish.all wordOk = true := by decide +kernel

theorem traditional_length : Data.chineseTraditional.length = 2048 := by decide +kernel
theorem french_length : Data.french.length = 2048 := by decide +kernel
theorem italian_length : Data.italian.length = 2048 := by decide +kernel
theorem japanese_length : Data.japanese.length = 2048 := by decide +kernel
theorem korean_length : Data.korean.length = 2048 := by decide +kernel
theorem spanish_length : Data.spanish.length = 2048 := by decide +kernel

/-! ### no words in common -/

theorem japanese_script : (Data.japanese.all fun w => w.all fun c => !isLowerLatin c && !isHan c) = true := by decide +kernel
theorem korean_script : (Data.korean.all fun w => w.all fun c => !isLowerLatin c && !isHan c) = true := by decide +kernel
theorem latin_script :
    ((Data.french ++ Data.italian ++ Data.spanish).all fun w => w.all fun c => !isHan c) = true := by decide +kernel
theorem traditional_script : (Data.chineseTraditional.all fun w => w.all isHan) = true := by decide +kernel

/-! ### code-point order -/

theorem italian_chain : chainLt Data.italian = true := by decide +kernel
theorem korean_chain : chainLt Data.korean = true := by decide +kernel

/-! ### the normalisation tables -/

theorem kana_marks_fixed :
    (Data.decompositions.all fun p => !isKanaN p.1 && !isMarkN p.1) = true := by decide +kernel

theorem letters_class0 :
    (Data.combiningClasses.all fun p => !isKanaN p.1 && !(0x1100 ≤ p.1 && p.1 ≤ 0x11FF)) = true := by decide +kernel

/-- begins no word: a mark, or Arabic -/
def strange (n : Nat) : Bool := (Data.combiningClasses.lookup n).isSome || (0x600 ≤ n && n ≤ 0x6FF)

/-- every space is followed by a strange character -/
def spacesOk : List Nat → Bool
  | [] => true
  | [d] => d != 0x20
  | a :: b :: r => (a != 0x20 || strange b) && spacesOk (b :: r)

theorem spaces_ok :
    (Data.decompositions.all fun p => isWhitespace (Char.ofNat p.1) || spacesOk p.2) = true := by decide +kernel

/-! ### words are in normal form -/

theorem letter_noWs {c : Char} (h : isLetter c = true) : isWhitespace c = false := by
  simp [isLetter, isLowerLatin, isHan, isJamo, isKanaN] at h
  simp [isWhitespace]; omega

theorem mark_noWs {c : Char} (h : isMarkN c.toNat = true) : isWhitespace c = false := by
  simp [isMarkN] at h
  simp [isWhitespace]; omega

theorem decompose_listed_ne {c : Char} (h1 : isHangulSyllable c = false)
    (h2 : ∀ p ∈ Data.decompositions, p.1 ≠ c.toNat) : decomposeCompatible c = [c] := by
  unfold decomposeCompatible
  split
  · rfl
  · rw [if_neg (by simp [h1])]
    rw [lookup_isSome_of_mem (l := Data.decompositions) (by
      intro hm
      obtain ⟨p, hp, he⟩ := List.mem_map.mp hm
      exact h2 p hp he)]

theorem class_zero {c : Char} (h : ∀ p ∈ Data.combiningClasses, p.1 ≠ c.toNat) : combiningClass c = 0 := by
  unfold combiningClass
  rw [lookup_isSome_of_mem (l := Data.combiningClasses) (by
      intro hm
      obtain ⟨p, hp, he⟩ := List.mem_map.mp hm
      exact h p hp he)]
  rfl

theorem letter_inert {c : Char} (h : isLetter c = true) : Inert c := by
  simp only [isLetter, Bool.or_eq_true] at h
  rcases h with ((h | h) | h) | h
  · exact inert_latin h
  · exact inert_han h
  · have hb : 0x1100 ≤ c.toNat ∧ c.toNat ≤ 0x11FF := by simpa [isJamo] using h
    constructor
    · apply decompose_listed_ne
      · simp [isHangulSyllable]; omega
      · intro p hp he
        have := entry_ok hp
        simp [entryOk] at this
        omega
    · apply class_zero
      intro p hp he
      have := List.all_eq_true.mp letters_class0 p hp
      simp at this
      omega
  · have hb : 0x3041 ≤ c.toNat ∧ c.toNat ≤ 0x3096 := by
      simp [isKanaN] at h; omega
    constructor
    · apply decompose_listed_ne
      · simp [isHangulSyllable]; omega
      · intro p hp he
        have := List.all_eq_true.mp kana_marks_fixed p hp
        rw [he, h] at this
        simp at this
    · apply class_zero
      intro p hp he
      have := List.all_eq_true.mp letters_class0 p hp
      rw [he, h] at this
      simp at this

theorem mark_fixed {c : Char} (h : isMarkN c.toNat = true) : decomposeCompatible c = [c] := by
  apply decompose_listed_ne
  · simp [isMarkN] at h
    simp [isHangulSyllable]; omega
  · intro p hp he
    have := List.all_eq_true.mp kana_marks_fixed p hp
    rw [he, h] at this
    simp at this

theorem restOk_chars {p : Bool} {w : Str} (h : restOk p w = true) :
    ∀ c ∈ w, isLetter c = true ∨ isMarkN c.toNat = true := by
  induction w generalizing p with
  | nil => simp
  | cons d ds ih =>
    simp only [restOk, Bool.or_eq_true, Bool.and_eq_true] at h
    intro c hc
    rcases List.mem_cons.mp hc with rfl | hc
    · rcases h with h | h
      · exact .inl h.1
      · exact .inr h.1.1
    · rcases h with h | h
      · exact ih h.2 c hc
      · exact ih h.2 c hc

theorem wordOk_chars {w : Str} (h : wordOk w = true) : ∀ c ∈ w, isLetter c = true ∨ isMarkN c.toNat = true := by
  cases w with
  | nil => simp
  | cons d ds =>
    apply restOk_chars (p := false)
    simp only [wordOk, Bool.and_eq_true] at h
    simp [restOk, h.1, h.2]

theorem restOk_canon {p : Bool} {w : Str} (h : restOk p w = true) :
    CanonOrder w ∧ (p = true → ∀ c, w.head? = some c → combiningClass c = 0) := by
  unfold CanonOrder
  induction w generalizing p with
  | nil => simp
  | cons d ds ih =>
    simp only [restOk, Bool.or_eq_true, Bool.and_eq_true] at h
    rcases h with ⟨h1, h2⟩ | ⟨⟨h1, hp⟩, h2⟩
    · obtain ⟨i1, i2⟩ := ih h2
      refine ⟨?_, ?_⟩
      · cases ds with
        | nil => simp
        | cons e es =>
          rw [List.isChain_cons_cons]
          exact ⟨by have := (letter_inert h1).2; simp only [this]; omega, i1⟩
      · intro _ c hc
        simp at hc; subst hc
        exact (letter_inert h1).2
    · obtain ⟨i1, i2⟩ := ih h2
      refine ⟨?_, by intro e; simp [e] at hp⟩
      cases ds with
      | nil => simp
      | cons e es =>
        rw [List.isChain_cons_cons]
        exact ⟨.inl (i2 rfl e rfl), i1⟩

theorem wordOk_nfkd {w : Str} (h : wordOk w = true) : nfkd w = w := by
  have hfix : w.flatMap decomposeCompatible = w := by
    apply flatMap_fixed
    intro c hc
    rcases wordOk_chars h c hc with h | h
    · exact (letter_inert h).1
    · exact mark_fixed h
  unfold nfkd
  rw [hfix]
  rw [reorder_of_canon [] w (by simp)]
  · rfl
  · cases w with
    | nil => exact List.isChain_nil
    | cons d ds =>
      simp only [wordOk, Bool.and_eq_true] at h
      have : restOk false (d :: ds) = true := by simp [restOk, h.1, h.2]
      exact (restOk_canon this).1

theorem wordOk_clean {w : Str} (h : wordOk w = true) : w ≠ [] ∧ NoWs w := by
  refine ⟨by rintro rfl; simp [wordOk] at h, ?_⟩
  intro c hc
  rcases wordOk_chars h c hc with h | h
  · exact letter_noWs h
  · exact mark_noWs h

/-! ### the eight lists -/

theorem words_ok (l : Lang) {w : Str} (h : w ∈ Spec.All.words l) : wordOk w = true := by
  cases l
  · exact List.all_eq_true.mp english_ok w h
  · exact List.all_eq_true.mp simplified_ok w h
  · exact List.all_eq_true.mp traditional_ok w h
  · exact List.all_eq_true.mp french_ok w h
  · exact List.all_eq_true.mp italian_ok w h
  · exact List.all_eq_true.mp japanese_ok w h
  · exact List.all_eq_true.mp korean_ok w h
  · exact List.all_eq_true.mp spanish_ok w h

theorem wordlist_eq (l : Lang) : l.wordlist = Spec.All.words l := by
  have key : ∀ l, genWordlist (fileTxt (Spec.All.words l)) = Spec.All.words l := fun l =>
    splitWhitespace_lines _ fun w hw => wordOk_clean (words_ok l hw)
  cases l
  · exact key .english
  · exact key .chineseSimplified
  · exact key .chineseTraditional
  · exact key .french
  · exact key .italian
  · exact key .japanese
  · exact key .korean
  · exact key .spanish

theorem wordlist_length (l : Lang) : l.wordlist.length = 2048 := by
  rw [wordlist_eq]
  cases l
  · exact english_length
  · exact chinese_length
  · exact traditional_length
  · exact french_length
  · exact italian_length
  · exact japanese_length
  · exact korean_length
  · exact spanish_length

theorem wordlist_nodup (l : Lang) : l.wordlist.Nodup := by
  rw [wordlist_eq]
  cases l
  · exact english_nodup
  · exact chinese_nodup
  · exact traditional_nodup
  · exact french_nodup
  · exact italian_nodup
  · exact japanese_nodup
  · exact korean_nodup
  · exact spanish_nodup

theorem wordlist_ok (l : Lang) {w : Str} (h : w ∈ l.wordlist) : wordOk w = true :=
  words_ok l (by rwa [wordlist_eq] at h)

theorem wordlist_clean (l : Lang) : ∀ w ∈ l.wordlist, w ≠ [] ∧ NoWs w := fun _ h => wordOk_clean (wordlist_ok l h)

theorem nfkd_word (l : Lang) {w : Str} (h : w ∈ l.wordlist) : nfkd w = w := wordOk_nfkd (wordlist_ok l h)

/-! ### spaces that appear in normalisation -/

/-- no word begins with `c` -/
def Strange (c : Char) : Prop := combiningClass c ≠ 0 ∨ (0x600 ≤ c.toNat ∧ c.toNat ≤ 0x6FF)

theorem strange_not_letter {c : Char} (h : Strange c) : isLetter c = false := by
  cases hc : isLetter c with
  | false => rfl
  | true =>
    rcases h with h | h
    · exact absurd (letter_inert hc).2 h
    · simp [isLetter, isLowerLatin, isHan, isJamo, isKanaN] at hc
      omega

theorem classes_nonzero {n : Nat} (h : (Data.combiningClasses.lookup n).isSome) :
    (Data.combiningClasses.lookup n).getD 0 ≠ 0 := by
  cases hl : Data.combiningClasses.lookup n with
  | none => simp [hl] at h
  | some v =>
    have := List.all_eq_true.mp combiningClasses_ok _ (mem_of_lookup hl)
    simp [classOk] at this
    simpa using this.1.2

/-- a space in a decomposition is followed by a strange character -/
theorem spacesOk_split {l : List Nat} (h : spacesOk l = true) (hm : 0x20 ∈ l) :
    ∃ a b r, l = a ++ 0x20 :: b :: r ∧ strange b = true := by
  induction l with
  | nil => simp at hm
  | cons x l ih =>
    cases l with
    | nil => simp at hm; subst hm; simp [spacesOk] at h
    | cons y r =>
      simp only [spacesOk, Bool.and_eq_true, Bool.or_eq_true] at h
      by_cases hx : x = 0x20
      · subst hx
        exact ⟨[], y, r, rfl, by simpa using h.1⟩
      · obtain ⟨a, b, r', e, hb⟩ := ih h.2 (by simp [Ne.symm hx] at hm; simpa using hm)
        exact ⟨x :: a, b, r', by rw [e]; rfl, hb⟩

theorem decompose_space {c : Char} (hc : isWhitespace c = false) (h : ' ' ∈ decomposeCompatible c) :
    ∃ a d r, decomposeCompatible c = a ++ ' ' :: d :: r ∧ Strange d := by
  have hs := h
  unfold decomposeCompatible at h
  split at h
  · simp at h; subst h; simp [isWhitespace] at hc
  · rename_i hc1
    split at h
    · rename_i hh
      exfalso
      have hd := nfkd_space_alien (w := [c]) (by intro x hx; simp at hx; subst hx; exact hc) (x := ' ')
        (by rw [mem_nfkd]; exact ⟨c, by simp, hs⟩) (by decide)
      have jamo : ∀ n, 0x1100 ≤ n → n ≤ 0x11FF → ' ' = Char.ofNat n → False := by
        intro n h1 h2 e
        have hv : (Char.ofNat n).toNat = n := toNat_ofNat (by omega) (by omega)
        rw [← e] at hv
        simp at hv
        omega
      have hlt : c.toNat - 0xAC00 < 11172 := by
        simp [isHangulSyllable] at hh; omega
      simp only [decomposeHangul] at h
      generalize c.toNat - 0xAC00 = si at h hlt
      split at h
      · simp only [List.mem_cons, List.not_mem_nil, or_false] at h
        rcases h with h | h <;> exact (jamo _ (by omega) (by omega) h).elim
      · simp only [List.mem_cons, List.not_mem_nil, or_false] at h
        rcases h with h | h | h <;> exact (jamo _ (by omega) (by omega) h).elim
    · rename_i hh
      split at h
      · rename_i ds hl
        have hmem := mem_of_lookup hl
        have hok := List.all_eq_true.mp spaces_ok _ hmem
        have hval := entry_ok hmem
        simp only [entryOk, Bool.and_eq_true] at hval
        have hval := hval.1.2
        simp only [Char.ofNat_toNat, hc, Bool.false_or] at hok
        have hv : ∀ n ∈ ds, (Char.ofNat n).toNat = n := by
          intro n hn
          have := List.all_eq_true.mp hval n hn
          simp at this
          exact toNat_ofNat (by omega) (by omega)
        obtain ⟨n, hn, hne⟩ := List.mem_map.mp h
        have h20 : n = 0x20 := by
          have := hv n hn
          rw [hne] at this
          simpa using this.symm
        subst h20
        obtain ⟨a, b, r, e, hb⟩ := spacesOk_split hok hn
        refine ⟨a.map Char.ofNat, Char.ofNat b, r.map Char.ofNat, ?_, ?_⟩
        · unfold decomposeCompatible
          rw [if_neg hc1, if_neg hh, hl]
          simp only [e, List.map_append, List.map_cons]
        · have hvb := hv b (by rw [e]; simp)
          simp only [strange, Bool.or_eq_true] at hb
          unfold Strange combiningClass
          rw [hvb]
          rcases hb with hb | hb
          · exact .inl (classes_nonzero hb)
          · right; simpa using hb
      · simp at h; subst h; simp [isWhitespace] at hc

theorem sortPending_strange (l : Str) (h : ∀ c ∈ l, combiningClass c ≠ 0) (hne : l ≠ []) :
    ∃ x r, sortPending l = x :: r ∧ combiningClass x ≠ 0 := by
  cases hs : sortPending l with
  | nil =>
    have := (sortPending_perm l).length_eq
    rw [hs] at this
    simp at this
    exact absurd this.symm (by simpa using hne)
  | cons x r =>
    exact ⟨x, r, rfl, h x ((sortPending_perm l).mem_iff.mp (by rw [hs]; simp))⟩

theorem reorder_strange (p s : Str) (hp : ∀ c ∈ p, combiningClass c ≠ 0) (hne : p ≠ []) :
    ∃ x r, reorder p s = x :: r ∧ combiningClass x ≠ 0 := by
  induction s generalizing p with
  | nil => exact sortPending_strange p hp hne
  | cons c cs ih =>
    simp only [reorder]
    split
    · obtain ⟨x, r, e, hx⟩ := sortPending_strange p hp hne
      exact ⟨x, _, by rw [e]; rfl, hx⟩
    · rename_i hc
      refine ih (p ++ [c]) ?_ (by simp)
      intro d hd
      rcases List.mem_append.mp hd with hd | hd
      · exact hp d hd
      · simp at hd; subst hd; exact hc

theorem reorder_head_strange {d : Char} (h : Strange d) (s : Str) :
    ∃ x r, reorder [] (d :: s) = x :: r ∧ Strange x := by
  by_cases hc : combiningClass d = 0
  · refine ⟨d, reorder [] s, ?_, h⟩
    simp [reorder, hc, sortPending, reorder_starter]
  · obtain ⟨x, r, e, hx⟩ := reorder_strange [d] s (by simpa using hc) (by simp)
    exact ⟨x, r, by simp only [reorder, if_neg hc]; exact e, .inl hx⟩

/-- If a piece without white space normalises to something with a space, then a strange character follows a space. -/
theorem nfkd_space_strange {w : Str} (hw : NoWs w) (h : ' ' ∈ nfkd w) :
    ∃ a x b, nfkd w = a ++ ' ' :: x :: b ∧ Strange x := by
  obtain ⟨c, hc, hs⟩ := mem_nfkd.mp h
  obtain ⟨a, d, r, e, hd⟩ := decompose_space (hw c hc) hs
  obtain ⟨u, v, rfl⟩ := List.append_of_mem hc
  obtain ⟨x, t, hx, hsx⟩ := reorder_head_strange hd (r ++ v.flatMap decomposeCompatible)
  refine ⟨reorder [] (u.flatMap decomposeCompatible ++ a), x, t, ?_, hsx⟩
  unfold nfkd
  rw [← hx, ← reorder_append_starter inert_space.2]
  simp [e]

/-- The piece after a space, which is not the first one. -/
theorem piece_after_space (a : Str) {b : Str} {x : Char} (hx : x ≠ ' ') :
    ∃ r, (x :: r) ∈ (splitChar ' ' (a ++ ' ' :: x :: b)).tail := by
  induction a with
  | nil =>
    obtain ⟨w, ws, -, h⟩ := splitChar_cons_ne (sep := ' ') (cs := b) hx
    exact ⟨w, by rw [List.nil_append, splitChar_sep, h]; simp⟩
  | cons c cs ih =>
    obtain ⟨r, hr⟩ := ih
    by_cases hc : c = ' '
    · subst hc
      exact ⟨r, by rw [List.cons_append, splitChar_sep]; exact List.mem_of_mem_tail hr⟩
    · obtain ⟨w, ws, h1, h2⟩ := splitChar_cons_ne (sep := ' ') (cs := cs ++ ' ' :: x :: b) hc
      exact ⟨r, by rw [List.cons_append, h2]; rw [h1] at hr; exact hr⟩

theorem join_parts (ws : List Str) {w : Str} (h : w ∈ ws) : ∃ u v, join [' '] ws = u ++ w ++ v := by
  induction ws with
  | nil => simp at h
  | cons a r ih =>
    cases r with
    | nil => simp at h; subst h; exact ⟨[], [], by simp⟩
    | cons b r =>
      rw [join_cons_cons]
      rcases List.mem_cons.mp h with rfl | h
      · exact ⟨[], [' '] ++ join [' '] (b :: r), by simp⟩
      · obtain ⟨u, v, e⟩ := ih h
        exact ⟨a ++ [' '] ++ u, v, by rw [e]; simp⟩

end Kms.Bip39.All
