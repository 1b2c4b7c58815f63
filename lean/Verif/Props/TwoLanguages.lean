import Verif.Proofs.AllWordsOverlap
import Verif.Props.AllLanguages
/-
Property C129: phrases that can be read in two languages.
-/
namespace Kms.Props
open Kms.Bip39 Kms.Spec
open Kms.Bip39.All (Lang script scriptOf scripts displaced)
open Kms.Spec.All (ofLanguage ofMnemonic)

/-! ### words in two lists -/

theorem not_both {a b : List Str} (h : (a ++ b).Nodup) {w : Str} (ha : w ∈ a) (hb : w ∈ b) : False :=
  List.disjoint_of_nodup_append h ha hb

theorem script_of_mem {l : Lang} {w : Str} (h : w ∈ All.words l) : script w = scriptOf l := by
  simpa using List.all_eq_true.mp (scripts l) w h

/-- The two pairs of languages that have words in common. -/
theorem shared_pair {l l' : Lang} (hne : l ≠ l') {w : Str} (h : w ∈ All.words l) (h' : w ∈ All.words l') :
    (l ∈ [Lang.english, .french] ∧ l' ∈ [Lang.english, .french]) ∨
    (l ∈ [Lang.chineseSimplified, .chineseTraditional] ∧ l' ∈ [Lang.chineseSimplified, .chineseTraditional]) := by
  have hs : scriptOf l = scriptOf l' := (script_of_mem h).symm.trans (script_of_mem h')
  cases l <;> cases l' <;> first
    | exact absurd rfl hne
    | simp; done
    | exact absurd hs (by decide)
    | exact (not_both All.english_italian h h').elim
    | exact (not_both All.english_italian h' h).elim
    | exact (not_both All.english_spanish h h').elim
    | exact (not_both All.english_spanish h' h).elim
    | exact (not_both All.french_italian h h').elim
    | exact (not_both All.french_italian h' h).elim
    | exact (not_both All.french_spanish h h').elim
    | exact (not_both All.french_spanish h' h).elim
    | exact (not_both All.italian_spanish h h').elim
    | exact (not_both All.italian_spanish h' h).elim

theorem displaced_or {as bs : List Str} (hlen : as.length = bs.length) {i : Nat} {w : Str} (h : bs[i]? = some w) :
    w ∈ displaced as bs ∨ as[i]? = some w := by
  induction as generalizing bs i with
  | nil => simp at hlen; simp [hlen.symm] at h
  | cons a as ih =>
    cases bs with
    | nil => simp at h
    | cons b bs =>
      simp at hlen
      cases i with
      | zero =>
        simp at h
        subst h
        unfold displaced
        split
        · right; simp [*]
        · left; simp
      | succ i =>
        simp at h
        rcases ih hlen h with h1 | h1
        · left
          unfold displaced
          split
          · exact h1
          · simp [h1]
        · right; simpa using h1

theorem displaced_length (as bs : List Str) : (displaced as bs).length ≤ bs.length := by
  induction as generalizing bs with
  | nil => simp [displaced]
  | cons a as ih =>
    cases bs with
    | nil => simp [displaced]
    | cons b bs =>
      have := ih bs
      unfold displaced
      split <;> simp <;> omega

theorem displaced_same {as bs : List Str} {i : Nat} {w : Str} (h : as[i]? = some w) (h' : bs[i]? = some w) :
    (displaced as bs).length < bs.length := by
  induction as generalizing bs i with
  | nil => simp at h
  | cons a as ih =>
    cases bs with
    | nil => simp at h'
    | cons b bs =>
      cases i with
      | zero =>
        simp at h h'
        have := displaced_length as bs
        unfold displaced
        rw [if_pos (h.trans h'.symm)]
        simp; omega
      | succ i =>
        simp at h h'
        have := ih h h'
        unfold displaced
        split <;> simp <;> omega

/-- No word has the same number in English and French. -/
theorem english_french_places {i : Nat} {w : Str} (h : Data.english[i]? = some w) (h' : Data.french[i]? = some w) : False := by
  have := displaced_same h h'
  rw [All.english_french_displaced] at this
  omega

/-- A character of both Chinese lists has the same number in both. -/
theorem chinese_places {i : Nat} {w : Str} (h : Data.chineseTraditional[i]? = some w) (hw : w ∈ Data.chineseSimplified) :
    Data.chineseSimplified[i]? = some w := by
  have hlen : Data.chineseSimplified.length = Data.chineseTraditional.length := by
    have h1 := All.wordlist_length .chineseSimplified
    have h2 := All.wordlist_length .chineseTraditional
    rw [All.wordlist_eq] at h1 h2
    exact h1.trans h2.symm
  rcases displaced_or hlen h with h1 | h1
  · exact (not_both All.traditional_displaced hw h1).elim
  · exact h1

theorem chinese_places' {i : Nat} {w : Str} (h : Data.chineseSimplified[i]? = some w) (hw : w ∈ Data.chineseTraditional) :
    Data.chineseTraditional[i]? = some w := by
  obtain ⟨j, hj⟩ := List.mem_iff_getElem?.mp hw
  have h1 := chinese_places hj (List.mem_of_getElem? h)
  have hn := All.wordlist_nodup .chineseSimplified
  rw [All.wordlist_eq] at hn
  obtain ⟨hl, hg⟩ := List.getElem?_eq_some_iff.mp h
  obtain ⟨hl', hg'⟩ := List.getElem?_eq_some_iff.mp h1
  have : i = j := (List.Nodup.getElem_inj_iff hn).mp (hg.trans hg'.symm)
  rw [this]; exact hj

theorem wordsAt_move {wl wl' : List Str} (hmove : ∀ (i : Nat) (w : Str), wl[i]? = some w → w ∈ wl' → wl'[i]? = some w) {ws : List Str} {idx : List Nat}
    (h : WordsAt wl ws idx) (hws : ∀ w ∈ ws, w ∈ wl') : WordsAt wl' ws idx := by
  induction ws generalizing idx with
  | nil => cases idx with
    | nil => rfl
    | cons i idx => simp [WordsAt] at h
  | cons w ws ih => cases idx with
    | nil => simp [WordsAt] at h
    | cons i idx =>
      rw [wordsAt_cons] at h ⊢
      exact ⟨hmove i w h.1 (hws w (by simp)), ih h.2 fun v hv => hws v (by simp [hv])⟩

/-! ### C129 -/

/-- The outcome in another language of a text that one language accepts: `InvalidWord` if a word is missing there. -/
theorem other_missing {H : Hashes} {p : Str} {l l' : Lang} {m : All.Mnemonic} (h : All.Mnemonic.fromPhrase H p l = .ok m)
    (hmiss : ∃ w ∈ (splitWhitespace p).map nfkd, w ∉ All.words l') :
    All.Mnemonic.fromPhrase H p l' = .err .invalidWord := by
  obtain ⟨idx, hw, henc, -, -⟩ := (All.fromPhrase_ok_iff H p l m).mp h
  have hne : (splitWhitespace p).map nfkd ≠ [] := ne_nil_of_sizes (by rw [wordsAt_length hw]; exact henc.1)
  unfold All.Mnemonic.fromPhrase
  simp only
  rw [All.phraseToEntropy_badWord]
  · rfl
  · rw [All.wordsAt_split l _ idx hw hne, All.wordlist_eq]
    exact hmiss

/-- **C129** A text that `from_phrase` accepts in one language is refused with `InvalidWord` in every other one, except between English
and French and between the two Chinese lists.  In the build of Cargo.toml, with English and simplified Chinese, there is
no exception; the same holds there of `validate`. -/
theorem C129_other_languages_refuse (H : Hashes) (p : Str) :
    (∀ l l' m, All.Mnemonic.fromPhrase H p l = .ok m → l ≠ l' →
      ¬ (l ∈ [Lang.english, .french] ∧ l' ∈ [Lang.english, .french]) →
      ¬ (l ∈ [Lang.chineseSimplified, .chineseTraditional] ∧ l' ∈ [Lang.chineseSimplified, .chineseTraditional]) →
      All.Mnemonic.fromPhrase H p l' = .err .invalidWord) ∧
    (∀ l l' m, Mnemonic.fromPhrase H p l = .ok m → l ≠ l' → Mnemonic.fromPhrase H p l' = .err .invalidWord) ∧
    (∀ l l', Mnemonic.validate H p l = .ok () → l ≠ l' → Mnemonic.validate H p l' = .err .invalidWord) := by
  have main : ∀ l l' m, All.Mnemonic.fromPhrase H p l = .ok m → l ≠ l' →
      ¬ (l ∈ [Lang.english, .french] ∧ l' ∈ [Lang.english, .french]) →
      ¬ (l ∈ [Lang.chineseSimplified, .chineseTraditional] ∧ l' ∈ [Lang.chineseSimplified, .chineseTraditional]) →
      All.Mnemonic.fromPhrase H p l' = .err .invalidWord := by
    intro l l' m h hne h1 h2
    apply other_missing h
    obtain ⟨idx, hw, henc, -, -⟩ := (All.fromPhrase_ok_iff H p l m).mp h
    obtain ⟨w, hm⟩ := List.exists_mem_of_ne_nil _ (ne_nil_of_sizes (by rw [wordsAt_length hw]; exact henc.1) :
      (splitWhitespace p).map nfkd ≠ [])
    refine ⟨w, hm, fun hw' => ?_⟩
    have := wordsAt_mem hw w hm
    rw [All.wordlist_eq] at this
    rcases shared_pair hne this hw' with h3 | h3
    · exact h1 h3
    · exact h2 h3
  obtain ⟨-, -, -, -, -, -, hfrom, hval, -⟩ := C94_no_features H
  refine ⟨main, ?_, ?_⟩
  · intro l l' m h hne
    have h1 := hfrom p l
    rw [h] at h1
    have h2 := main (ofLanguage l) (ofLanguage l') (ofMnemonic m) h1
      (by cases l <;> cases l' <;> simp_all [ofLanguage]) (by cases l <;> cases l' <;> simp_all [ofLanguage])
      (by cases l <;> cases l' <;> simp_all [ofLanguage])
    rw [hfrom] at h2
    cases h3 : Mnemonic.fromPhrase H p l' <;> rw [h3] at h2 <;> simp_all [Res.map]
  · intro l l' h hne
    obtain ⟨-, -, -, hcl⟩ := C94_all_phrases H (ofLanguage l)
    obtain ⟨-, -, -, hcl'⟩ := C94_all_phrases H (ofLanguage l')
    obtain ⟨-, -, ⟨ws, hp, -, hok⟩, -⟩ := hcl p
    obtain ⟨-, -, ⟨ws', hp', herr, -⟩, -⟩ := hcl' p
    rw [hval] at hok
    rw [pieces_iff] at hp hp'
    obtain ⟨idx, hw, hsz, -⟩ := hok.mp h
    obtain ⟨w, hm⟩ := List.exists_mem_of_ne_nil ws (ne_nil_of_sizes (by rw [wordsAt_length hw]; exact hsz))
    rw [← hval]
    rw [herr]
    refine ⟨w, by rw [← hp', hp]; exact hm, fun hw' => ?_⟩
    rcases shared_pair (l := ofLanguage l) (l' := ofLanguage l') (by cases l <;> cases l' <;> simp_all [ofLanguage])
      (wordsAt_mem hw w hm) hw' with h3 | h3
    · revert h3; cases l <;> cases l' <;> simp_all [ofLanguage]
    · revert h3; cases l <;> cases l' <;> simp_all [ofLanguage]

/-- Reading in the other Chinese list. -/
theorem chinese_read {H : Hashes} {p : Str} {l l' : Lang} {m : All.Mnemonic} (h : All.Mnemonic.fromPhrase H p l = .ok m)
    (hl : l ∈ [Lang.chineseSimplified, .chineseTraditional]) (hl' : l' ∈ [Lang.chineseSimplified, .chineseTraditional])
    (hall : ∀ w ∈ (splitWhitespace p).map nfkd, w ∈ All.words l') :
    All.Mnemonic.fromPhrase H p l' = .ok ⟨m.phrase, l', m.entropy⟩ := by
  obtain ⟨idx, hw, henc, hp, -⟩ := (All.fromPhrase_ok_iff H p l m).mp h
  rw [All.fromPhrase_ok_iff]
  refine ⟨idx, ?_, henc, hp, rfl⟩
  rw [All.wordlist_eq] at hw ⊢
  simp only [List.mem_cons, List.not_mem_nil, or_false] at hl hl'
  rcases hl with rfl | rfl <;> rcases hl' with rfl | rfl
  · exact hw
  · exact wordsAt_move (fun _ _ => chinese_places') hw hall
  · exact wordsAt_move (fun _ _ => chinese_places) hw hall
  · exact hw

/-- **C129** What the two Chinese lists make of one text: if one of them accepts it, the other reads the same phrase and the same
entropy from it, unless a word is missing there, which is `InvalidWord`. -/
theorem C129_chinese_lists_agree (H : Hashes) (p : Str) (ws : List Str) (l l' : Lang) (m : All.Mnemonic)
    (hl : l ∈ [Lang.chineseSimplified, .chineseTraditional]) (hl' : l' ∈ [Lang.chineseSimplified, .chineseTraditional])
    (hp : NormalWords p ws) (h : All.Mnemonic.fromPhrase H p l = .ok m) :
    ((∀ w ∈ ws, w ∈ All.words l') → All.Mnemonic.fromPhrase H p l' = .ok ⟨m.phrase, l', m.entropy⟩) ∧
    ((∃ w ∈ ws, w ∉ All.words l') → All.Mnemonic.fromPhrase H p l' = .err .invalidWord) := by
  rw [normalWords_iff] at hp
  subst hp
  exact ⟨chinese_read h hl hl', other_missing h⟩

/-- The bytes that make the seed of a mnemonic read in simplified Chinese are not those of its phrase in UTF-8. -/
theorem simplified_bytes {H : Hashes} {p : Str} {m : All.Mnemonic}
    (h : All.Mnemonic.fromPhrase H p .chineseSimplified = .ok m) : m.asBytes ≠ utf8Of m.phrase := by
  obtain ⟨-, -, -, -, -, -, hfrom, -, hb⟩ := C94_no_features H
  have h1 := hfrom p .chineseSimplified
  rw [show ofLanguage .chineseSimplified = Lang.chineseSimplified from rfl, h] at h1
  cases h2 : Mnemonic.fromPhrase H p .chineseSimplified with
  | ok m0 =>
    rw [h2] at h1
    simp [Res.map] at h1
    subst h1
    rw [(hb m0 []).1]
    have hl : m0.lang = .chineseSimplified := by
      have := (All.fromPhrase_ok_iff H p .chineseSimplified _).mp h
      obtain ⟨-, -, -, -, hl⟩ := this
      cases h3 : m0.lang
      · simp [ofMnemonic, h3, ofLanguage] at hl
      · rfl
    exact (C21_chinese_seed_input_not_utf8 H m0 (.fromPhrase p _ m0 h2) hl).2.1
  | err e => rw [h2] at h1; simp [Res.map] at h1
  | panic => rw [h2] at h1; simp [Res.map] at h1

/-- **C129** A text that `from_phrase` accepts in two languages gives the same phrase in both, and the languages are English and
French, or the two Chinese ones.  In English and French the entropies are different and the seeds are the same, for every
password.  In the two Chinese lists the entropies are the same, but the seeds are made of different bytes. -/
theorem C129_accepted_in_two (H : Hashes) (p : Str) (l l' : Lang) (m m' : All.Mnemonic) (hne : l ≠ l')
    (h : All.Mnemonic.fromPhrase H p l = .ok m) (h' : All.Mnemonic.fromPhrase H p l' = .ok m') :
    m.phrase = m'.phrase ∧
    ((l ∈ [Lang.english, .french] ∧ l' ∈ [Lang.english, .french] ∧ m.entropy ≠ m'.entropy ∧
        ∀ pw, All.Seed.new H m pw = All.Seed.new H m' pw) ∨
      (l ∈ [Lang.chineseSimplified, .chineseTraditional] ∧ l' ∈ [Lang.chineseSimplified, .chineseTraditional] ∧
        m.entropy = m'.entropy ∧
        ∃ b b', b ≠ b' ∧ ∀ pw npw, IsNfkd pw npw →
          (All.Seed.new H m pw).bytes = pbkdf2T (hmac (sha512 H)) b (asciiBytes "mnemonic" ++ utf8Of npw) 2047 ∧
          (All.Seed.new H m' pw).bytes = pbkdf2T (hmac (sha512 H)) b' (asciiBytes "mnemonic" ++ utf8Of npw) 2047)) := by
  obtain ⟨idx, hw, henc, hp, hl⟩ := (All.fromPhrase_ok_iff H p l m).mp h
  obtain ⟨idx', hw', henc', hp', hl'⟩ := (All.fromPhrase_ok_iff H p l' m').mp h'
  have hphrase : m.phrase = m'.phrase := hp.trans hp'.symm
  rw [All.wordlist_eq] at hw hw'
  obtain ⟨w, ws, hws⟩ := List.exists_cons_of_ne_nil (ne_nil_of_sizes (by rw [wordsAt_length hw]; exact henc.1) :
      (splitWhitespace p).map nfkd ≠ [])
  have hpair := shared_pair hne (wordsAt_mem hw w (by rw [hws]; simp)) (wordsAt_mem hw' w (by rw [hws]; simp))
  refine ⟨hphrase, hpair.imp (fun h3 => ⟨h3.1, h3.2, ?_, ?_⟩) (fun h3 => ⟨h3.1, h3.2, ?_, ?_⟩)⟩
  · intro he
    rw [he] at henc
    have hi : idx = idx' := encodes_unique henc henc'
    subst hi
    rw [hws] at hw hw'
    cases idx with
    | nil => simp [WordsAt] at hw
    | cons i idx =>
      rw [wordsAt_cons] at hw hw'
      obtain ⟨h4, h5⟩ := h3
      simp only [List.mem_cons, List.not_mem_nil, or_false] at h4 h5
      rcases h4 with rfl | rfl <;> rcases h5 with rfl | rfl
      · exact hne rfl
      · exact english_french_places hw.1 hw'.1
      · exact english_french_places hw'.1 hw.1
      · exact hne rfl
  · intro pw
    have hb : m.asBytes = m'.asBytes := by
      unfold All.Mnemonic.asBytes
      obtain ⟨h4, h5⟩ := h3
      rw [hl, hl', hphrase, if_neg, if_neg]
      · rintro rfl; simp at h5
      · rintro rfl; simp at h4
    unfold All.Seed.new
    rw [hb]
  · have := chinese_read h h3.1 h3.2 (wordsAt_mem hw')
    rw [h'] at this
    simp at this
    rw [this]
  · have seed : ∀ {l m}, All.Mnemonic.fromPhrase H p l = .ok m → ∀ pw npw, IsNfkd pw npw →
        (All.Seed.new H m pw).bytes =
          pbkdf2T (hmac (sha512 H)) m.asBytes (asciiBytes "mnemonic" ++ utf8Of npw) 2047 := by
      intro l m h pw npw hn
      have hc : All.Constructible H m := .fromPhrase p l m h
      by_cases hz : m.lang = .chineseSimplified
      · obtain ⟨b, -, hb, hs⟩ := (C96_all_seeds H).2.1 m pw npw hc hn hz
        rw [hb]; exact hs
      · obtain ⟨-, hb, hs⟩ := (C96_all_seeds H).1 m pw npw hc hn hz
        rw [hb]; exact hs
    refine ⟨m.asBytes, m'.asBytes, ?_, fun pw npw hn => ⟨seed h pw npw hn, seed h' pw npw hn⟩⟩
    have trad : ∀ {m : All.Mnemonic}, m.lang = .chineseTraditional → m.asBytes = utf8Of m.phrase := by
      intro m hm
      unfold All.Mnemonic.asBytes
      rw [if_neg (by rw [hm]; decide)]
      rfl
    obtain ⟨h4, h5⟩ := h3
    simp only [List.mem_cons, List.not_mem_nil, or_false] at h4 h5
    rcases h4 with rfl | rfl <;> rcases h5 with rfl | rfl
    · exact absurd rfl hne
    · rw [trad hl', ← hphrase]; exact simplified_bytes h
    · rw [trad hl, hphrase]; exact (simplified_bytes h').symm
    · exact absurd rfl hne

/-- A phrase of words that English and French share. -/
def doublePhrase : Str := spaced (List.replicate 10 "abandon".toList ++ ["amateur".toList, "double".toList])

/-- **C129** There are such phrases, with the real SHA-256: an English phrase that is also a French one, of other entropy, and the
phrase of sixteen zero bytes in both Chinese lists. -/
theorem C129_such_phrases_exist :
    All.Mnemonic.fromPhrase Real.hashes doublePhrase .english =
      .ok ⟨doublePhrase, .english, List.replicate 14 0 ++ [0x1e, 0xa0]⟩ ∧
    All.Mnemonic.fromPhrase Real.hashes doublePhrase .french =
      .ok ⟨doublePhrase, .french,
        [0x00, 0x20, 0x04, 0x00, 0x80, 0x10, 0x02, 0x00, 0x40, 0x08, 0x01, 0x00, 0x20, 0x04, 0x2c, 0x25]⟩ ∧
    (∀ l ∈ [Lang.chineseSimplified, .chineseTraditional],
      All.Mnemonic.fromPhrase Real.hashes (zeroPhrase .chineseSimplified) l =
        .ok ⟨zeroPhrase .chineseSimplified, l, List.replicate 16 0⟩) := by
  have key : ∀ (p : Str) (l : Lang) (ws : List Str) (idx : List Nat) (e : Bytes), spaced ws = p → (splitWhitespace p).map nfkd = ws →
      WordsAt (All.words l) ws idx → Encodes (sha Real.hashes) idx e →
      All.Mnemonic.fromPhrase Real.hashes p l = .ok ⟨p, l, e⟩ := by
    intro p l ws idx e hp hs hw he
    rw [(C94_all_phrases Real.hashes l).2.1]
    exact ⟨ws, idx, normalWords_iff.2 hs, hw, he, hp.symm, rfl⟩
  refine ⟨?_, ?_, ?_⟩
  · exact key _ _ (List.replicate 10 "abandon".toList ++ ["amateur".toList, "double".toList]) (List.replicate 10 0 ++ [61, 525]) _ rfl
      (by decide +kernel) (by unfold WordsAt; decide +kernel) (by unfold Encodes; decide +kernel)
  · exact key _ _ (List.replicate 10 "abandon".toList ++ ["amateur".toList, "double".toList]) (List.replicate 10 1 ++ [88, 594]) _ rfl
      (by decide +kernel) (by unfold WordsAt; decide +kernel) (by unfold Encodes; decide +kernel)
  · intro l hl
    apply key _ _ (List.replicate 11 "的".toList ++ ["在".toList]) (List.replicate 11 0 ++ [3]) _ (by decide +kernel) (by decide +kernel)
    · unfold WordsAt; revert l; decide +kernel
    · unfold Encodes; decide +kernel

-- the hypotheses of `C129_other_languages_refuse` are met: the English phrase is refused in Spanish
example : All.Mnemonic.fromPhrase Real.hashes doublePhrase .spanish = .err .invalidWord := by
  apply (C129_other_languages_refuse Real.hashes doublePhrase).1 _ _ _ C129_such_phrases_exist.1 <;> decide

end Kms.Props
