import Verif.Proofs.AllLanguages
import Verif.Proofs.NfkdSpec
import Verif.Proofs.Spells
import Verif.Props.Language
import Verif.Props.Seed
/-
Properties C94 to C97: the source text with any of the six languages that stand under undeclared Cargo features.
-/
namespace Kms.Props
open Kms.Bip39 Kms.Spec
open Kms.Bip39.All (Lang Features)
open Kms.Bip39.Language (getBits getWord getWordsByPrefix binarySearch binarySearch')
open Kms.Spec.All (In Outcome noFeatures ofLanguage ofMnemonic)

/-- C94. Each of the eight files has 2048 distinct words, in NFKD form; `get_bits` answers the number of a word and
`InvalidWord` otherwise; `get_word` answers the word with a number below 2048 and panics otherwise. -/
theorem C94_all_word_lists (l : Lang) :
    (All.words l).length = 2048 ∧ (All.words l).Nodup ∧ (∀ w ∈ All.words l, IsNfkd w w ∧ Spells w [w]) ∧
    (∀ (w : Str) (b : BitVec 16), getBits l.wordmap w = .ok b ↔ (All.words l)[b.toNat]? = some w) ∧
    (∀ w : Str, getBits l.wordmap w = .err .invalidWord ↔ w ∉ All.words l) ∧
    (∀ (w : Str) (b : BitVec 16), getWord l.wordlist b = .ok w ↔ (All.words l)[b.toNat]? = some w) ∧
    (∀ b : BitVec 16, getWord l.wordlist b = .panic ↔ 2048 ≤ b.toNat) := by
  rw [← All.wordlist_eq]
  have hlen := All.wordlist_length l
  refine ⟨hlen, All.wordlist_nodup l, ?_, fun w b => All.getBits_eq_ok_iff l w b, ?_, fun w b => All.getWord_eq_ok_iff l b w, ?_⟩
  · intro w hw
    obtain ⟨h1, h2⟩ := All.wordlist_clean l w hw
    exact ⟨isNfkd_iff.2 (All.nfkd_word l hw), spells_iff.2 (splitWhitespace_word h1 h2)⟩
  · intro w
    rw [All.getBits_eq_err_iff]; simp
  · intro b
    unfold getWord
    by_cases h : b.toNat < 2048
    · rw [List.getElem?_eq_getElem (by omega)]; simp; omega
    · rw [List.getElem?_eq_none (by omega)]; simp; omega

/-- C94. In every language: `from_entropy` accepts the five BIP39 lengths and no other, and writes the words whose numbers are the
11-bit groups of the entropy followed by the checksum; `from_phrase` accepts exactly the texts whose white-space separated
pieces have NFKD forms that are list words encoding some entropy, and keeps these words, single-spaced, with that
entropy; what either accepts, the other reproduces; what is refused is refused with the error BIP39 calls for, and nothing
panics. -/
theorem C94_all_phrases (H : Hashes) (l : Lang) :
    (∀ e : Bytes, e.length < 2 ^ 61 →
      ((∃ m, All.Mnemonic.fromEntropy H e l = .ok m) ↔ e.length ∈ entropyLengths) ∧
      (e.length ∉ entropyLengths → All.Mnemonic.fromEntropy H e l = .err (.invalidKeysize (8 * e.length))) ∧
      (∀ m, All.Mnemonic.fromEntropy H e l = .ok m → m.entropy = e ∧ m.lang = l ∧
        (∃ ws idx, m.phrase = spaced ws ∧ WordsAt (All.words l) ws idx ∧ Encodes (sha H) idx e) ∧
        All.Mnemonic.fromPhrase H m.phrase l = .ok m)) ∧
    (∀ (p : Str) (m : All.Mnemonic), All.Mnemonic.fromPhrase H p l = .ok m ↔
      ∃ ws idx, NormalWords p ws ∧ WordsAt (All.words l) ws idx ∧ Encodes (sha H) idx m.entropy ∧
        m.phrase = spaced ws ∧ m.lang = l) ∧
    (∀ (p : Str) (m : All.Mnemonic), All.Mnemonic.fromPhrase H p l = .ok m → All.Mnemonic.fromEntropy H m.entropy l = .ok m) ∧
    (∀ p : Str, All.Mnemonic.validate H p l ≠ .panic ∧ All.Mnemonic.fromPhrase H p l ≠ .panic ∧
      (∃ ws, Pieces p ws ∧ (∀ k, All.Mnemonic.validate H p l = .err k ↔ Outcome H l ws (some k)) ∧
        (All.Mnemonic.validate H p l = .ok () ↔ Outcome H l ws none)) ∧
      (∃ vs ws, NormalWords p vs ∧ Pieces (spaced vs) ws ∧
        (∀ k, All.Mnemonic.fromPhrase H p l = .err k ↔ Outcome H l ws (some k)) ∧
        ((∃ m, All.Mnemonic.fromPhrase H p l = .ok m) ↔ Outcome H l ws none))) := by
  have unchecked : ∀ e : Bytes, e.length ∈ entropyLengths →
      ∃ ws idx, All.Mnemonic.fromEntropy H e l = .ok ⟨join [' '] ws, l, e⟩ ∧ WordsAt l.wordlist ws idx ∧
        Encodes (sha H) idx e := by
    intro e he
    obtain ⟨ws, idx, h, hw, henc, _⟩ := All.fromEntropyUnchecked_spec H e l he
    exact ⟨ws, idx, (All.fromEntropy_ok_iff H e l he _).mpr h, hw, henc⟩
  refine ⟨?_, ?_, ?_, ?_⟩
  · intro e hsz
    have hm : usizeMul e.length 8 = 8 * e.length := by
      unfold usizeMul
      rw [Nat.mod_eq_of_lt (by omega), Nat.mul_comm]
    refine ⟨⟨fun ⟨m, h⟩ => All.fromEntropy_len H e l m hsz h, ?_⟩, ?_, ?_⟩
    · intro he
      obtain ⟨ws, idx, h, _⟩ := unchecked e he
      exact ⟨_, h⟩
    · intro he
      have : MnemonicType.forKeySize (8 * e.length) = .err (.invalidKeysize (8 * e.length)) := by
        simp [entropyLengths] at he
        unfold MnemonicType.forKeySize
        split <;> first | rfl | (exfalso; omega)
      simp [All.Mnemonic.fromEntropy, hm, this]
    · intro m h
      obtain ⟨ws, idx, h', hw, henc⟩ := unchecked e (All.fromEntropy_len H e l m hsz h)
      rw [h'] at h
      simp at h
      subst h
      refine ⟨rfl, rfl, ⟨ws, idx, (spaced_eq_join ws).symm, by rw [← All.wordlist_eq]; exact hw, henc⟩, ?_⟩
      rw [All.fromPhrase_ok_iff]
      simp only [All.wordsAt_normal l hw]
      exact ⟨idx, hw, henc, trivial, trivial⟩
  · intro p m
    rw [All.fromPhrase_ok_iff, All.wordlist_eq]
    simp only [normalWords_iff, spaced_eq_join]
    constructor
    · rintro ⟨idx, h⟩
      exact ⟨_, idx, rfl, h⟩
    · rintro ⟨_, idx, rfl, h⟩
      exact ⟨idx, h⟩
  · intro p m h
    obtain ⟨idx, hw, henc, hp, hl⟩ := (All.fromPhrase_ok_iff H p l m).mp h
    obtain ⟨ws, idx', h', hw', henc'⟩ := unchecked m.entropy (encodes_entropyLength henc)
    have : idx = idx' := encodes_unique henc henc'
    subst this
    rw [h', wordsAt_words_unique hw' hw, ← hp, ← hl]
  · intro p
    obtain ⟨a1, a2, a3⟩ := All.phraseToEntropy_class H p l
    obtain ⟨b1, b2, b3⟩ := All.phraseToEntropy_class H (join [' '] ((splitWhitespace p).map nfkd)) l
    refine ⟨?_, ?_, ⟨_, pieces_iff.2 rfl, ?_, ?_⟩, ⟨_, _, normalWords_iff.2 rfl, pieces_iff.2 rfl, ?_, ?_⟩⟩
    · unfold All.Mnemonic.validate
      cases h : All.Mnemonic.phraseToEntropy H p l <;> simp_all
    · unfold All.Mnemonic.fromPhrase
      cases h : All.Mnemonic.phraseToEntropy H (join [' '] ((splitWhitespace p).map nfkd)) l <;> simp_all
    · intro k
      rw [← a2 k]
      unfold All.Mnemonic.validate
      cases h : All.Mnemonic.phraseToEntropy H p l <;> simp
    · rw [← a3]
      unfold All.Mnemonic.validate
      cases h : All.Mnemonic.phraseToEntropy H p l <;> simp
    · intro k
      rw [spaced_eq_join, ← b2 k]
      unfold All.Mnemonic.fromPhrase
      cases h : All.Mnemonic.phraseToEntropy H (join [' '] ((splitWhitespace p).map nfkd)) l <;> simp [h]
    · rw [spaced_eq_join, ← b3]
      unfold All.Mnemonic.fromPhrase
      cases h : All.Mnemonic.phraseToEntropy H (join [' '] ((splitWhitespace p).map nfkd)) l <;> simp [h]

/-- C94. In the build of Cargo.toml the eight-language text is the two-language program of the other properties: the same
languages, lists, codes and detection, and the same results of every operation on mnemonics. -/
theorem C94_no_features (H : Hashes) :
    (∀ l, In noFeatures l ↔ ∃ l', l = ofLanguage l') ∧
    (∀ l, (ofLanguage l).wordlist = l.wordlist ∧ (ofLanguage l).wordmap = l.wordmap) ∧
    (∀ c, Lang.fromLanguageCode noFeatures c = (Language.fromLanguageCode c).map ofLanguage) ∧
    (∀ p, Lang.fromPhrase p = (Language.fromPhrase p).map ofLanguage) ∧
    (∀ e l, All.Mnemonic.fromEntropy H e (ofLanguage l) = (Mnemonic.fromEntropy H e l).map ofMnemonic) ∧
    (∀ rng t l, All.Mnemonic.new H rng t (ofLanguage l) = (Mnemonic.new H rng t l).map ofMnemonic) ∧
    (∀ p l, All.Mnemonic.fromPhrase H p (ofLanguage l) = (Mnemonic.fromPhrase H p l).map ofMnemonic) ∧
    (∀ p l, All.Mnemonic.validate H p (ofLanguage l) = Mnemonic.validate H p l) ∧
    (∀ m pw, (ofMnemonic m).asBytes = m.asBytes ∧ All.Seed.new H (ofMnemonic m) pw = Seed.new H m pw) := by
  have hl : ∀ l, (ofLanguage l).wordlist = l.wordlist := by intro l; cases l <;> rfl
  have hm : ∀ l, (ofLanguage l).wordmap = l.wordmap := by
    intro l; unfold Lang.wordmap Language.wordmap; rw [hl]
  have hu : ∀ e l, All.Mnemonic.fromEntropyUnchecked H e (ofLanguage l) =
      (Mnemonic.fromEntropyUnchecked H e l).map ofMnemonic := by
    intro e l
    unfold All.Mnemonic.fromEntropyUnchecked Mnemonic.fromEntropyUnchecked
    simp only [hl]
    cases getWords l.wordlist (BitIter.new (e ++ [H.sha256FirstByte e])).toList <;> rfl
  have hp : ∀ p l, All.Mnemonic.phraseToEntropy H p (ofLanguage l) = Mnemonic.phraseToEntropy H p l := by
    intro p l
    unfold All.Mnemonic.phraseToEntropy Mnemonic.phraseToEntropy
    rw [hm]
  have hb : ∀ m, (ofMnemonic m).asBytes = m.asBytes := by
    intro m
    unfold All.Mnemonic.asBytes Mnemonic.asBytes ofMnemonic
    cases m.lang <;> rfl
  refine ⟨?_, fun l => ⟨hl l, hm l⟩, ?_, ?_, ?_, ?_, ?_, ?_, fun m pw => ⟨hb m, ?_⟩⟩
  · intro l
    constructor
    · intro h
      cases h with
      | english => exact ⟨.english, rfl⟩
      | chineseSimplified => exact ⟨.chineseSimplified, rfl⟩
      | _ h => simp [noFeatures] at h
    · rintro ⟨l', rfl⟩
      cases l'
      · exact .english
      · exact .chineseSimplified
  · intro c
    unfold Lang.fromLanguageCode Language.fromLanguageCode
    simp only [noFeatures, Bool.false_eq_true, false_and, if_false]
    change (if toAsciiLowercase c = ['e', 'n'] then _ else if toAsciiLowercase c = ['z', 'h', '-', 'c', 'n'] then _ else _) = _
    split
    · rfl
    · split <;> rfl
  · intro p
    unfold Lang.fromPhrase Language.fromPhrase
    have h1 : Lang.wordmap .english = Language.wordmap .english := hm .english
    have h2 : Lang.wordmap .chineseSimplified = Language.wordmap .chineseSimplified := hm .chineseSimplified
    rw [h1, h2]
    cases splitWhitespace p with
    | nil => rfl
    | cons w ws =>
      simp only
      split
      · rfl
      · split <;> rfl
  · intro e l
    unfold All.Mnemonic.fromEntropy Mnemonic.fromEntropy
    rw [hu]
    cases MnemonicType.forKeySize (usizeMul e.length 8) <;> rfl
  · intro rng t l
    exact hu _ l
  · intro p l
    unfold All.Mnemonic.fromPhrase Mnemonic.fromPhrase Mnemonic.normalisePhrase
    simp only [hp]
    cases Mnemonic.phraseToEntropy H (join [' '] ((splitWhitespace p).map nfkd)) l <;> rfl
  · intro p l
    unfold All.Mnemonic.validate Mnemonic.validate
    rw [hp]
  · unfold All.Seed.new Seed.new
    rw [hb]

/-- The phrase of sixteen zero bytes, whose checksum is 3: eleven times the first word, then the fourth. -/
def zeroPhrase (l : Lang) : Str :=
  spaced (List.replicate 11 ((All.words l)[0]?.getD []) ++ [(All.words l)[3]?.getD []])

-- the entropy of sixteen zero bytes in each of the six languages
example : ∀ l ∈ [Lang.japanese, .korean, .spanish, .french, .italian, .chineseTraditional],
    All.Mnemonic.fromEntropy Real.hashes (List.replicate 16 0) l = .ok ⟨zeroPhrase l, l, List.replicate 16 0⟩ := by
  intro l hl
  unfold All.Mnemonic.fromEntropy All.Mnemonic.fromEntropyUnchecked
  rw [All.wordlist_eq]
  revert l
  decide +kernel

/-! ### codes and detection -/

theorem english_not {l : List Str} (h : (Data.english ++ l).Nodup) {w : Str} (hw : w ∈ l) : w ∉ Data.english :=
  fun he => List.disjoint_of_nodup_append h he hw

theorem foreign_words {l : Lang} {w : Str} (hw : w ∈ All.words l) :
    (l ∈ [Lang.italian, .japanese, .korean, .spanish] → w ∉ Data.english ∧ w ∉ Data.chineseSimplified) ∧
    (l = .french → w ∉ Data.chineseSimplified) ∧ (l = .chineseTraditional → w ∉ Data.english) := by
  have nochin : (∀ c ∈ w, isHan c = false) → w ∉ Data.chineseSimplified := by
    intro h hc
    obtain ⟨c, rfl, hh⟩ := chinese_word hc
    rw [h c (by simp)] at hh
    simp at hh
  have noeng : w ≠ [] → (∀ c ∈ w, isLowerLatin c = false) → w ∉ Data.english := by
    intro hne h hc
    obtain ⟨c, r, rfl⟩ := List.exists_cons_of_ne_nil hne
    have := (english_word hc).2 c (by simp)
    rw [h c (by simp)] at this
    simp at this
  have hne : w ≠ [] := (All.wordlist_clean l w (by rw [All.wordlist_eq]; exact hw)).1
  have latin : w ∈ Data.french ++ Data.italian ++ Data.spanish → ∀ c ∈ w, isHan c = false := by
    intro h c hc
    have := List.all_eq_true.mp All.latin_script w h
    have := List.all_eq_true.mp this c hc
    simpa using this
  refine ⟨?_, ?_, ?_⟩
  · intro hl
    simp only [List.mem_cons, List.not_mem_nil, or_false] at hl
    rcases hl with rfl | rfl | rfl | rfl
    · refine ⟨english_not All.english_italian hw, nochin (latin ?_)⟩
      have : w ∈ Data.italian := hw
      simp [this]
    · have := List.all_eq_true.mp All.japanese_script w hw
      simp only [List.all_eq_true, Bool.and_eq_true, Bool.not_eq_true'] at this
      exact ⟨noeng hne fun c hc => (this c hc).1, nochin fun c hc => (this c hc).2⟩
    · have := List.all_eq_true.mp All.korean_script w hw
      simp only [List.all_eq_true, Bool.and_eq_true, Bool.not_eq_true'] at this
      exact ⟨noeng hne fun c hc => (this c hc).1, nochin fun c hc => (this c hc).2⟩
    · refine ⟨english_not All.english_spanish hw, nochin (latin ?_)⟩
      have : w ∈ Data.spanish := hw
      simp [this]
  · rintro rfl
    apply nochin (latin ?_)
    have : w ∈ Data.french := hw
    simp [this]
  · rintro rfl
    have := List.all_eq_true.mp All.traditional_script w hw
    simp only [List.all_eq_true] at this
    apply noeng hne
    intro c hc
    have := this c hc
    simp [isHan] at this
    simp [isLowerLatin]; omega

/-- C95. In a build with any of the features: a code names a language exactly when it is that language's code in any ASCII case
and the language is in the build; different languages have different codes, and `zh-hans` and `zh-hant`, which the crate's
own tests for these builds expect to work, name none.  Detection of the language of a phrase looks at the first word and at the English and
simplified Chinese lists only: it never answers another language; it answers nothing for every Italian, Japanese, Korean and
Spanish mnemonic, English or nothing for every French one, and simplified Chinese or nothing for every traditional Chinese one. -/
theorem C95_codes_and_detection (F : Features) :
    (∀ c l, Lang.fromLanguageCode F c = some l ↔ In F l ∧ List.Forall₂ SameLetter c (All.code l)) ∧
    (∀ l l', All.code l = All.code l' → l = l') ∧
    (∀ c, (List.Forall₂ SameLetter c "zh-hans".toList ∨ List.Forall₂ SameLetter c "zh-hant".toList) →
      Lang.fromLanguageCode F c = none) ∧
    (∀ p l, Lang.fromPhrase p = some l ↔ ∃ w ws, Spells p (w :: ws) ∧ w ∈ All.words l ∧
      (l = .english ∨ l = .chineseSimplified)) ∧
    (∀ H m, All.Constructible H m →
      (m.lang = .english ∨ m.lang = .chineseSimplified → Lang.fromPhrase m.phrase = some m.lang) ∧
      (m.lang ∈ [Lang.italian, .japanese, .korean, .spanish] → Lang.fromPhrase m.phrase = none) ∧
      (m.lang = .french → Lang.fromPhrase m.phrase = some .english ∨ Lang.fromPhrase m.phrase = none) ∧
      (m.lang = .chineseTraditional →
        Lang.fromPhrase m.phrase = some .chineseSimplified ∨ Lang.fromPhrase m.phrase = none)) := by
  have lower : ∀ l, ∀ d ∈ All.code l, ¬ (65 ≤ d.toNat ∧ d.toNat ≤ 90) := by intro l; cases l <;> decide
  have codes : ∀ c l, Lang.fromLanguageCode F c = some l ↔ In F l ∧ toAsciiLowercase c = All.code l := by
    intro c l
    have hin : ∀ l, In F l ↔ l.compiled F = true := by
      intro l
      constructor
      · intro h; cases h <;> simp_all [Lang.compiled]
      · intro h
        cases l
        · exact .english
        · exact .chineseSimplified
        · exact .chineseTraditional h
        · exact .french h
        · exact .italian h
        · exact .japanese h
        · exact .korean h
        · exact .spanish h
    rw [hin]
    unfold Lang.fromLanguageCode
    simp only
    generalize toAsciiLowercase c = a
    constructor
    · intro h
      repeat' split at h
      all_goals first
        | (simp only [Option.some.injEq] at h; subst h; simp_all [Lang.compiled, All.code])
        | simp at h
    · rintro ⟨h, rfl⟩
      cases l <;> simp_all [Lang.compiled, All.code]
  have detect : ∀ p l, Lang.fromPhrase p = some l ↔ ∃ w ws, Spells p (w :: ws) ∧ w ∈ All.words l ∧
      (l = .english ∨ l = .chineseSimplified) := by
    intro p l
    simp only [spells_iff]
    unfold Lang.fromPhrase
    simp only [All.getBits_isOk_iff, All.wordlist_eq]
    cases hs : splitWhitespace p with
    | nil => simp
    | cons w ws =>
      simp only
      constructor
      · intro h
        refine ⟨w, ws, rfl, ?_⟩
        split at h
        · rename_i he
          simp at h; subst h; exact ⟨he, .inl rfl⟩
        · split at h
          · rename_i he
            simp at h; subst h; exact ⟨he, .inr rfl⟩
          · simp at h
      · rintro ⟨w', ws', e, hw, hl⟩
        obtain ⟨rfl, rfl⟩ := List.cons.inj e
        rcases hl with rfl | rfl
        · rw [if_pos hw]
        · rw [if_neg, if_pos hw]
          intro he
          exact wordlists_disjoint (w := w) (by rw [wordlist_english]; exact he) (by rw [wordlist_chinese]; exact hw)
  refine ⟨?_, ?_, ?_, detect, ?_⟩
  · intro c l
    rw [codes, ← sameLetters_iff c _ (lower l)]
  · intro l l'
    cases l <;> cases l' <;> simp [All.code]
  · intro c hc
    rw [← sameLetters_iff c _ (by decide), ← sameLetters_iff c _ (by decide)] at hc
    cases h : Lang.fromLanguageCode F c with
    | none => rfl
    | some l =>
      rw [codes] at h
      exfalso
      rcases hc with hc | hc
      · rw [h.2] at hc; revert hc; cases l <;> decide
      · rw [h.2] at hc; revert hc; cases l <;> decide
  · intro H m hm
    obtain ⟨ws, idx, hp, hw, henc⟩ := All.constructible_shape H m hm
    obtain ⟨w, ws', rfl⟩ := List.exists_cons_of_ne_nil (ne_nil_of_sizes (by rw [wordsAt_length hw]; exact henc.1) : ws ≠ [])
    have hsp : Spells m.phrase (w :: ws') := by
      rw [hp, spells_iff]
      exact splitWhitespace_join _ fun v hv => All.wordlist_clean m.lang v (wordsAt_mem hw v hv)
    have hmem : w ∈ All.words m.lang := by
      rw [← All.wordlist_eq]; exact wordsAt_mem hw w (by simp)
    have only : ∀ l, Lang.fromPhrase m.phrase = some l → w ∈ All.words l ∧ (l = .english ∨ l = .chineseSimplified) := by
      intro l h
      obtain ⟨v, vs, h1, h2⟩ := (detect _ _).mp h
      rw [spells_iff] at h1 hsp
      rw [hsp] at h1
      obtain ⟨rfl, rfl⟩ := List.cons.inj h1
      exact h2
    refine ⟨fun h => (detect _ _).mpr ⟨w, ws', hsp, hmem, h⟩, ?_, ?_, ?_⟩
    · intro hl
      obtain ⟨h1, h2⟩ := (foreign_words hmem).1 hl
      cases h : Lang.fromPhrase m.phrase with
      | none => rfl
      | some l =>
        obtain ⟨h3, rfl | rfl⟩ := only l h
        · exact absurd h3 h1
        · exact absurd h3 h2
    · intro hl
      have h1 := (foreign_words hmem).2.1 hl
      cases h : Lang.fromPhrase m.phrase with
      | none => exact .inr rfl
      | some l =>
        obtain ⟨h3, rfl | rfl⟩ := only l h
        · exact .inl rfl
        · exact absurd h3 h1
    · intro hl
      have h1 := (foreign_words hmem).2.2 hl
      cases h : Lang.fromPhrase m.phrase with
      | none => exact .inr rfl
      | some l =>
        obtain ⟨h3, rfl | rfl⟩ := only l h
        · exact absurd h3 h1
        · exact .inl rfl

/-- A French phrase that begins with a word it shares with English. -/
def abandonPhrase : Str :=
  spaced ("abandon".toList :: (List.replicate 10 "abaisser".toList ++ ["absence".toList]))

-- a French mnemonic taken for English, one taken for nothing, and a traditional Chinese one taken for simplified
example : (∃ m, All.Constructible Real.hashes m ∧ m.lang = .french ∧ m.phrase = abandonPhrase ∧
      Lang.fromPhrase m.phrase = some .english) ∧
    Lang.fromPhrase (zeroPhrase .french) = none ∧ Lang.fromPhrase (zeroPhrase .chineseTraditional) = some .chineseSimplified := by
  refine ⟨⟨⟨abandonPhrase, .french, 0 :: 32 :: List.replicate 14 0⟩, .fromEntropy (0 :: 32 :: List.replicate 14 0) .french _ ?_ ?_, rfl, rfl, ?_⟩, ?_, ?_⟩
  · decide
  · unfold All.Mnemonic.fromEntropy All.Mnemonic.fromEntropyUnchecked
    rw [All.wordlist_eq]
    decide +kernel
  · rw [(C95_codes_and_detection noFeatures).2.2.2.1]
    refine ⟨"abandon".toList, List.replicate 10 "abaisser".toList ++ ["absence".toList], spells_iff.2 ?_, ?_, .inl rfl⟩
    · decide +kernel
    · decide +kernel
  · cases h : Lang.fromPhrase (zeroPhrase .french) with
    | none => rfl
    | some l =>
      obtain ⟨w, ws, h1, h2, h3⟩ := ((C95_codes_and_detection noFeatures).2.2.2.1 _ _).mp h
      rw [spells_iff] at h1
      have e : splitWhitespace (zeroPhrase .french) =
          List.replicate 11 "abaisser".toList ++ ["abeille".toList] := by decide +kernel
      rw [e] at h1
      have : "abaisser".toList = w := (List.cons.inj h1).1
      subst this
      rcases h3 with rfl | rfl
      · exact absurd h2 (by decide +kernel)
      · exact absurd h2 (by decide +kernel)
  · rw [(C95_codes_and_detection noFeatures).2.2.2.1]
    refine ⟨"的".toList, List.replicate 10 "的".toList ++ ["在".toList], spells_iff.2 ?_, ?_, .inr rfl⟩
    · decide +kernel
    · decide +kernel

-- all features on: a code in capitals; without them it names nothing
example : Lang.fromLanguageCode ⟨true, true, true, true, true, true⟩ "JA".toList = some .japanese ∧
    Lang.fromLanguageCode noFeatures "JA".toList = none := by decide

/-! ### seeds -/

/-- C96. In every language but simplified Chinese the seed of a mnemonic is the one BIP39 prescribes, PBKDF2 over the UTF-8 form
of the phrase, which is in NFKD form; of whatever text the mnemonic was read from, the phrase is the NFKD form of the words
with single spaces between them, so any spelling of the words and any white space, the ideographic space that Japanese phrases
are printed with included, gives the same seed.  In simplified Chinese the phrase goes in as GB18030. -/
theorem C96_all_seeds (H : Hashes) :
    (∀ m pw npw, All.Constructible H m → IsNfkd pw npw → m.lang ≠ .chineseSimplified →
      IsNfkd m.phrase m.phrase ∧ m.asBytes = utf8Of m.phrase ∧
      (All.Seed.new H m pw).bytes =
        pbkdf2T (hmac (sha512 H)) (utf8Of m.phrase) (asciiBytes "mnemonic" ++ utf8Of npw) 2047) ∧
    (∀ m pw npw, All.Constructible H m → IsNfkd pw npw → m.lang = .chineseSimplified →
      ∃ b, IsGb m.phrase b ∧ m.asBytes = b ∧
        (All.Seed.new H m pw).bytes = pbkdf2T (hmac (sha512 H)) b (asciiBytes "mnemonic" ++ utf8Of npw) 2047) ∧
    (∀ p raw l m, All.Mnemonic.fromPhrase H p l = .ok m → Spells p raw → IsNfkd (spaced raw) m.phrase) ∧
    (∀ p p' raw raw' ws l m m' pw, All.Mnemonic.fromPhrase H p l = .ok m → All.Mnemonic.fromPhrase H p' l = .ok m' →
      Spells p raw → Spells p' raw' → List.Forall₂ IsNfkd raw ws → List.Forall₂ IsNfkd raw' ws →
      All.Seed.new H m pw = All.Seed.new H m' pw) := by
  have bytes : ∀ m pw, (All.Seed.new H m pw).bytes =
      pbkdf2T (hmac (sha512 H)) m.asBytes (asciiBytes "mnemonic" ++ utf8 (nfkd pw)) 2047 := by
    intro m pw
    have hsalt : nfkd (Seed.salt pw) = "mnemonic".toList ++ nfkd pw := by
      unfold Seed.salt
      apply nfkd_inert_append
      intro c hc
      apply inert_ascii
      revert c
      decide
    have hutf : utf8 ("mnemonic".toList ++ nfkd pw) = asciiBytes "mnemonic" ++ utf8 (nfkd pw) := by
      unfold utf8
      rw [List.flatMap_append]
      congr 1
    unfold All.Seed.new Hashes.pbkdf2
    simp only [hsalt, hutf]
    exact pbkdf2Body_spec H _ _ 2047
  have normal : ∀ m, All.Constructible H m → nfkd m.phrase = m.phrase := by
    intro m hm
    obtain ⟨ws, idx, hp, hw, henc⟩ := All.constructible_shape H m hm
    rw [hp, nfkd_join]
    congr 1
    conv_rhs => rw [← List.map_id ws]
    apply List.map_congr_left
    intro w hw'
    exact All.nfkd_word m.lang (wordsAt_mem hw w hw')
  refine ⟨?_, ?_, ?_, ?_⟩
  · intro m pw npw hm hn hl
    rw [isNfkd_iff] at hn ⊢
    subst hn
    have hb : m.asBytes = utf8Of m.phrase := by
      unfold All.Mnemonic.asBytes
      rw [if_neg hl]
      rfl
    exact ⟨normal m hm, hb, by rw [bytes, hb]; rfl⟩
  · intro m pw npw hm hn hl
    rw [isNfkd_iff] at hn
    subst hn
    refine ⟨m.asBytes, ?_, rfl, bytes m pw⟩
    unfold All.Mnemonic.asBytes
    rw [if_pos hl]
    apply gb_isGb
    obtain ⟨ws, idx, hp, hw, henc⟩ := All.constructible_shape H m hm
    intro c hc
    rw [hp] at hc
    rcases mem_spaced ws c (by rw [spaced_eq_join]; exact hc) with h | ⟨w, hw', hc'⟩
    · exact Or.inl h
    · right
      have := wordsAt_mem hw w hw'
      rw [hl, All.wordlist_eq] at this
      have this : w ∈ Data.chineseSimplified := this
      obtain ⟨d, rfl, -⟩ := chinese_word this
      simp at hc'
      subst hc'
      exact this
  · intro p raw l m h hs
    rw [spells_iff] at hs
    obtain ⟨idx, -, -, hp, -⟩ := (All.fromPhrase_ok_iff H p l m).mp h
    rw [isNfkd_iff, spaced_eq_join, nfkd_join, hp, hs]
  · intro p p' raw raw' ws l m m' pw h h' hs hs' hr hr'
    rw [spells_iff] at hs hs'
    rw [forall_isNfkd_iff] at hr hr'
    obtain ⟨idx, -, -, hp, hl⟩ := (All.fromPhrase_ok_iff H p l m).mp h
    obtain ⟨idx', -, -, hp', hl'⟩ := (All.fromPhrase_ok_iff H p' l m').mp h'
    have : m.asBytes = m'.asBytes := by
      unfold All.Mnemonic.asBytes
      rw [hp, hp', hs, hs', hr, hr', hl, hl']
    unfold All.Seed.new
    rw [this]

-- Japanese, printed with ideographic spaces and composed characters, read as the same mnemonic
example : let p := join "　".toList (List.replicate 11 "あいこくしん".toList ++ ["あおぞら".toList])
    p ≠ zeroPhrase .japanese ∧ Spells p (List.replicate 11 "あいこくしん".toList ++ ["あおぞら".toList]) ∧
    All.Mnemonic.fromPhrase Real.hashes p .japanese = .ok ⟨zeroPhrase .japanese, .japanese, List.replicate 16 0⟩ := by
  refine ⟨by decide +kernel, spells_iff.2 (by decide +kernel), ?_⟩
  rw [((C94_all_phrases Real.hashes .japanese).2.1 _ _)]
  refine ⟨List.replicate 11 "あいこくしん".toList ++ ["あおそ\u3099ら".toList], List.replicate 11 0 ++ [3],
    normalWords_iff.2 (by decide +kernel), by unfold WordsAt; decide +kernel, by unfold Encodes; decide +kernel, by decide +kernel, rfl⟩

/-! ### prefix search -/

/-- C97. In every language the search does not panic and returns a stretch of the list, in list order, whose words all start with the query.
It returns all of them, for every query, in English, Italian and Korean, whose files are in code-point order, and in no other
language, with either of the two `binary_search` loops that have shipped; with any implementation that keeps to the documented contract
it does in those three. -/
theorem C97_prefix_search (l : Lang) :
    (∀ search, search = binarySearch ∨ search = binarySearch' → ∀ q, ∃ r, getWordsByPrefix search l.wordlist q = .ok r ∧
      r <:+: All.words l ∧ ∀ w ∈ r, q <+: w) ∧
    (∀ search, search = binarySearch ∨ search = binarySearch' →
      ((∀ q, getWordsByPrefix search l.wordlist q = .ok ((All.words l).filter (fun w => decide (q <+: w)))) ↔
        l ∈ [Lang.english, .italian, .korean])) ∧
    (l ∈ [Lang.english, .italian, .korean] → ∀ search, SearchContract search → ∀ q,
      getWordsByPrefix search l.wordlist q = .ok ((All.words l).filter (fun w => decide (q <+: w)))) := by
  have shape : ∀ search, search = binarySearch ∨ search = binarySearch' → ∀ q, ∃ r, getWordsByPrefix search l.wordlist q = .ok r ∧
      r <:+: All.words l ∧ ∀ w ∈ r, q <+: w := by
    intro search hs q
    have hle : Language.unwrapOrElseId (search l.wordlist q) ≤ l.wordlist.length := by
      rcases hs with rfl | rfl
      · exact binarySearch_le _ _
      · exact binarySearch'_le _ _
    refine ⟨_, getWordsByPrefix_eq search _ q _ rfl hle, ?_, ?_⟩
    · rw [← All.wordlist_eq]
      exact (List.takeWhile_prefix _).isInfix.trans (List.drop_suffix _ _).isInfix
    · intro w hw
      exact List.isPrefixOf_iff_prefix.mp (mem_takeWhile hw)
  have sorted : l ∈ [Lang.english, .italian, .korean] → ∀ search, SearchContract search → ∀ q,
      getWordsByPrefix search l.wordlist q = .ok ((All.words l).filter (fun w => decide (q <+: w))) := by
    intro hl search hc q
    have hs : (All.words l).Pairwise (fun a b => Language.strCmp a b = .lt) := by
      simp only [List.mem_cons, List.not_mem_nil, or_false] at hl
      rcases hl with rfl | rfl | rfl
      · exact english_pairwise
      · exact chainLt_sound _ All.italian_chain
      · exact chainLt_sound _ All.korean_chain
    rw [All.wordlist_eq, getWordsByPrefix_sorted search hc _ hs q]
    congr 1
    apply List.filter_congr
    intro w _
    rw [Bool.eq_iff_iff, List.isPrefixOf_iff_prefix, decide_eq_true_iff]
  -- a word that is in the list and is not found
  have missed : ∀ w, w ∈ All.words l → ∀ search, getWordsByPrefix search (All.words l) w = .ok [] →
      ¬ (∀ q, getWordsByPrefix search l.wordlist q = .ok ((All.words l).filter (fun w => decide (q <+: w)))) := by
    intro w hw search h hall
    have := hall w
    rw [All.wordlist_eq, h] at this
    have hm : w ∈ (All.words l).filter (fun v => decide (w <+: v)) :=
      List.mem_filter.mpr ⟨hw, by simp⟩
    simp only [Res.ok.injEq] at this
    rw [← this] at hm
    simp at hm
  refine ⟨shape, ?_, sorted⟩
  intro search hs
  constructor
  · intro h
    by_contra hl
    revert h
    rcases hs with rfl | rfl
    · cases l
      · simp at hl
      · exact missed "的".toList (by decide +kernel) _ (by decide +kernel)
      · exact missed "的".toList (by decide +kernel) _ (by decide +kernel)
      · exact missed "belote".toList (by decide +kernel) _ (by decide +kernel)
      · simp at hl
      · exact missed "あふ\u3099る".toList (by decide +kernel) _ (by decide +kernel)
      · simp at hl
      · exact missed "a\u0301baco".toList (by decide +kernel) _ (by decide +kernel)
    · cases l
      · simp at hl
      · exact missed "的".toList (by decide +kernel) _ (by decide +kernel)
      · exact missed "的".toList (by decide +kernel) _ (by decide +kernel)
      · exact missed "belote".toList (by decide +kernel) _ (by decide +kernel)
      · simp at hl
      · exact missed "あふ\u3099る".toList (by decide +kernel) _ (by decide +kernel)
      · simp at hl
      · exact missed "a\u0301baco".toList (by decide +kernel) _ (by decide +kernel)
  · intro hl
    rcases hs with rfl | rfl
    · exact sorted hl _ binarySearch_contract
    · exact sorted hl _ binarySearch'_contract

-- a query with several answers, and one whose answer is missed
example : getWordsByPrefix binarySearch (Lang.wordlist .italian) "zu".toList = .ok ["zucchero".toList, "zufolo".toList, "zulu".toList, "zuppa".toList] := by
  rw [((C97_prefix_search .italian).2.1 _ (.inl rfl)).mpr (by decide)]; decide +kernel
example : Language.getWordsByPrefix binarySearch' (Lang.wordlist .french) "belote".toList = .ok [] ∧
    "belote".toList ∈ All.words .french := by
  rw [All.wordlist_eq]; decide +kernel

end Kms.Props
