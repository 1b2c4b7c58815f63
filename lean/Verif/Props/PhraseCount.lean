import Verif.Props.Seed
import Verif.Props.PhraseMore
import Mathlib.Tactic.NormNum
import Mathlib.Tactic.Positivity
import Verif.Model.Debug
import Mathlib.Data.Set.Card
import Mathlib.Data.Fintype.BigOperators
import Mathlib.SetTheory.Cardinal.Finite
/-
C68–C71.
-/
namespace Kms.Props
open Spec Bip39

theorem ncard_bytes (m : Nat) : {e : Bytes | e.length = m}.ncard = 256 ^ m := by
  rw [← Nat.card_coe_set_eq]
  letI : Fintype UInt8 := Fintype.ofEquiv (Fin 256)
    ⟨fun i => UInt8.ofFin i, fun b => b.toFin, fun _ => rfl, fun _ => rfl⟩
  show Nat.card (List.Vector UInt8 m) = _
  rw [Nat.card_eq_fintype_card, card_vector, Fintype.ofEquiv_card, Fintype.card_fin]

/-- The phrase generated from entropy. -/
theorem phrase_of_entropy (H : Hashes) (l : Language) (e : Bytes) (he : e.length ∈ entropyLengths) :
    ∃ m, Mnemonic.fromEntropy H e l = .ok m ∧ m.entropy = e ∧ m.lang = l ∧ m.phrase.count ' ' + 1 = 3 * (e.length / 4) ∧
      Mnemonic.validate H m.phrase l = .ok () ∧ Mnemonic.fromPhrase H m.phrase l = .ok m := by
  obtain ⟨ws, idx, h, hw, henc, hlen, _⟩ := fromEntropyUnchecked_spec H e l he
  obtain ⟨v1, v2⟩ := words_validate H l ws idx e hw henc
  refine ⟨_, (fromEntropy_ok_iff H e l he _).mpr h, rfl, rfl, ?_, v1, v2⟩
  have hne : ws ≠ [] := ne_nil_of_sizes (by rw [wordsAt_length hw]; exact henc.1)
  rw [← splitChar_length, wordsAt_split l ws idx hw hne, wordsAt_length hw, hlen]

/-- **C68** For every language and phrase length, `validate` accepts exactly `2^(32n/3)` strings of `n` words, one for
each entropy of that size; it accepts nothing else. -/
theorem C68_phrase_count (H : Hashes) (l : Language) :
    (∀ n ∈ sizes, {s : Str | Mnemonic.validate H s l = .ok () ∧ s.count ' ' + 1 = n}.ncard = 2 ^ (32 * n / 3)) ∧
    (∀ s, Mnemonic.validate H s l = .ok () → s.count ' ' + 1 ∈ sizes) ∧
    {s : Str | Mnemonic.validate H s l = .ok ()}.ncard = 2 ^ 128 + 2 ^ 160 + 2 ^ 192 + 2 ^ 224 + 2 ^ 256 := by
  have hback : ∀ s, Mnemonic.validate H s l = .ok () → ∃ e m, e.length ∈ entropyLengths ∧
      Mnemonic.fromEntropy H e l = .ok m ∧ m.phrase = s ∧ s.count ' ' + 1 = 3 * (e.length / 4) := by
    intro s hs
    obtain ⟨m, hm, hp⟩ := (C10_validate_iff_verbatim H s l).mp hs
    obtain ⟨⟨m2, h2, h3⟩, _⟩ := C02_accepted_phrases_canonical H s l m hm
    have hlen : m.entropy.length ∈ entropyLengths := by
      obtain ⟨idx, _, henc, _⟩ := (fromPhrase_ok_iff H s l m).mp hm
      exact encodes_entropyLength henc
    obtain ⟨m3, h4, _, _, h5, _⟩ := phrase_of_entropy H l m.entropy hlen
    rw [h2] at h4
    simp only [Res.ok.injEq] at h4
    subst h4
    rw [h3, hp] at h5
    exact ⟨m.entropy, m2, hlen, h2, h3.trans hp, h5⟩
  have one : ∀ n ∈ sizes, {s : Str | Mnemonic.validate H s l = .ok () ∧ s.count ' ' + 1 = n}.ncard = 2 ^ (32 * n / 3) := by
    intro n hn
    have hk : ∃ k, n = 3 * k ∧ 4 * k ∈ entropyLengths ∧ 4 ≤ k := by
      simp only [sizes, List.mem_cons, List.not_mem_nil, or_false] at hn
      rcases hn with h | h | h | h | h
      · exact ⟨4, h, by decide, by decide⟩
      · exact ⟨5, h, by decide, by decide⟩
      · exact ⟨6, h, by decide, by decide⟩
      · exact ⟨7, h, by decide, by decide⟩
      · exact ⟨8, h, by decide, by decide⟩
    obtain ⟨k, rfl, hk, hk4⟩ := hk
    have hpow : 2 ^ (32 * (3 * k) / 3) = 256 ^ (4 * k) := by
      rw [show 32 * (3 * k) / 3 = 8 * (4 * k) by omega, pow_mul]
      norm_num
    rw [hpow, ← ncard_bytes]
    symm
    have ex : ∀ e : Bytes, e.length = 4 * k → ∃ m, Mnemonic.fromEntropy H e l = .ok m ∧ m.entropy = e ∧ m.lang = l ∧
        m.phrase.count ' ' + 1 = 3 * k ∧
        Mnemonic.validate H m.phrase l = .ok () ∧ Mnemonic.fromPhrase H m.phrase l = .ok m := by
      intro e he
      obtain ⟨m, h⟩ := phrase_of_entropy H l e (by rw [he]; exact hk)
      rw [he, show 4 * k / 4 = k by omega] at h
      exact ⟨m, h⟩
    choose f hf using ex
    apply Set.ncard_congr (fun e he => (f e he).phrase)
    · intro e he
      exact ⟨(hf e he).2.2.2.2.1, (hf e he).2.2.2.1⟩
    · intro e e' he he' heq
      have h1 := (hf e he).2.2.2.2.2
      have h2 := (hf e' he').2.2.2.2.2
      rw [heq, h2] at h1
      simp only [Res.ok.injEq] at h1
      rw [← (hf e he).2.1, ← (hf e' he').2.1, h1]
    · rintro s ⟨hs, hc⟩
      obtain ⟨e, m, hl, hm, hp, hcnt⟩ := hback s hs
      have he : e.length = 4 * k := by
        have : e.length % 4 = 0 := by
          simp only [entropyLengths, List.mem_cons, List.not_mem_nil, or_false] at hl
          omega
        omega
      refine ⟨e, he, ?_⟩
      have := (hf e he).1
      rw [hm] at this
      simp only [Res.ok.injEq] at this
      rw [← this, hp]
  have two : ∀ s, Mnemonic.validate H s l = .ok () → s.count ' ' + 1 ∈ sizes := by
    intro s hs
    obtain ⟨e, m, hl, hm, hp, hcnt⟩ := hback s hs
    rw [hcnt]
    simp only [entropyLengths, List.mem_cons, List.not_mem_nil, or_false] at hl
    rcases hl with h | h | h | h | h <;> rw [h] <;> decide
  refine ⟨one, two, ?_⟩
  have fin : ∀ n ∈ sizes, {s : Str | Mnemonic.validate H s l = .ok () ∧ s.count ' ' + 1 = n}.Finite := by
    intro n hn
    apply Set.finite_of_ncard_ne_zero
    rw [one n hn]
    positivity
  have hunion : {s : Str | Mnemonic.validate H s l = .ok ()} =
      {s : Str | Mnemonic.validate H s l = .ok () ∧ s.count ' ' + 1 = 12} ∪
      ({s : Str | Mnemonic.validate H s l = .ok () ∧ s.count ' ' + 1 = 15} ∪
      ({s : Str | Mnemonic.validate H s l = .ok () ∧ s.count ' ' + 1 = 18} ∪
      ({s : Str | Mnemonic.validate H s l = .ok () ∧ s.count ' ' + 1 = 21} ∪
      {s : Str | Mnemonic.validate H s l = .ok () ∧ s.count ' ' + 1 = 24}))) := by
    ext s
    simp only [Set.mem_setOf_eq, Set.mem_union]
    constructor
    · intro h
      have := two s h
      simp only [sizes, List.mem_cons, List.not_mem_nil, or_false] at this
      tauto
    · tauto
  have f12 := fin 12 (by decide)
  have f15 := fin 15 (by decide)
  have f18 := fin 18 (by decide)
  have f21 := fin 21 (by decide)
  have f24 := fin 24 (by decide)
  have g21 := f21.union f24
  have g18 := f18.union g21
  have g15 := f15.union g18
  rw [hunion, Set.ncard_union_eq ?_ f12 g15, Set.ncard_union_eq ?_ f15 g18, Set.ncard_union_eq ?_ f18 g21,
    Set.ncard_union_eq ?_ f21 f24,
    one 12 (by decide), one 15 (by decide), one 18 (by decide), one 21 (by decide), one 24 (by decide)]
  · norm_num
  all_goals
    rw [Set.disjoint_left]
    intro s h1 h2
    simp only [Set.mem_setOf_eq, Set.mem_union] at h1 h2
    obtain ⟨_, h1⟩ := h1
    omega

-- there are 2^128 English phrases of 12 words, and this is one
example (H : Hashes) : {s : Str | Mnemonic.validate H s .english = .ok () ∧ s.count ' ' + 1 = 12}.ncard = 2 ^ 128 :=
  (C68_phrase_count H .english).1 12 (by decide)

example : Mnemonic.validate Real.hashes vecPhrase .english = .ok () ∧ vecPhrase.count ' ' + 1 = 12 := by
  decide +kernel

/-- **C69** The text forms of a mnemonic agree: `Display`, `into_phrase` (and `String::from`, `as_ref`) give the phrase, `Debug`
gives it in quotes; the phrase holds nothing but spaces and characters of its language, none of which `Debug` escapes; and
reading it in that language gives back the very mnemonic, however it was made. -/
theorem C69_text_forms (H : Hashes) (m : Mnemonic) (hm : Constructible H m) :
    m.display = m.phrase ∧ m.intoPhrase = m.phrase ∧ m.debug = '"' :: m.phrase ++ ['"'] ∧
    (∀ c ∈ m.phrase, c = ' ' ∨
      (m.lang = .english ∧ 'a' ≤ c ∧ c ≤ 'z') ∨ (m.lang = .chineseSimplified ∧ '\u4e00' ≤ c ∧ c ≤ '\u9fff')) ∧
    Mnemonic.fromPhrase H m.display m.lang = .ok m ∧ Mnemonic.validate H m.display m.lang = .ok () := by
  obtain ⟨ws, idx, hp, hw, henc⟩ := constructible_shape H m hm
  obtain ⟨v1, v2⟩ := words_validate H m.lang ws idx m.entropy hw henc
  refine ⟨rfl, rfl, rfl, ?_, ?_, ?_⟩
  · intro c hc
    rw [hp, ← spaced_eq_join] at hc
    rcases mem_spaced ws c hc with h | ⟨w, hw', hc'⟩
    · exact .inl h
    · right
      have hmem := wordsAt_mem hw w hw'
      rw [words_eq] at hmem
      cases hl : m.lang with
      | english =>
        rw [hl] at hmem
        have := (english_word hmem).2 c hc'
        simp only [isLowerLatin, Bool.and_eq_true, decide_eq_true_eq] at this
        refine .inl ⟨rfl, ?_, ?_⟩
        · rw [Char.le_def, UInt32.le_iff_toNat_le]; exact this.1
        · rw [Char.le_def, UInt32.le_iff_toNat_le]; exact this.2
      | chineseSimplified =>
        rw [hl] at hmem
        obtain ⟨d, rfl, hd⟩ := chinese_word hmem
        simp only [List.mem_singleton] at hc'
        subst hc'
        simp only [isHan, Bool.and_eq_true, decide_eq_true_eq] at hd
        refine .inr ⟨rfl, ?_, ?_⟩
        · rw [Char.le_def, UInt32.le_iff_toNat_le]; exact hd.1
        · rw [Char.le_def, UInt32.le_iff_toNat_le]; exact Nat.le_trans hd.2 (by decide)
  · show Mnemonic.fromPhrase H m.phrase m.lang = .ok m
    rw [hp, v2, ← hp]
  · show Mnemonic.validate H m.phrase m.lang = .ok ()
    rw [hp, v1]

/-- A mnemonic that can be held. -/
example (H : Hashes) (l : Language) : ∃ m, Constructible H m ∧ m.lang = l := by
  obtain ⟨m, h, _, hl, _⟩ := phrase_of_entropy H l (List.replicate 32 7) (by decide)
  exact ⟨m, .fromEntropy _ l m (by decide) h, hl⟩

/-- **C70** Phrase sizes describe themselves by word count and entropy bits, which determine each other; the defaults are
12 words and English. -/
theorem C70_sizes_described :
    [MnemonicType.words12, .words15, .words18, .words21, .words24].map MnemonicType.display =
      ["12 words (128bits)".toList, "15 words (160bits)".toList, "18 words (192bits)".toList,
        "21 words (224bits)".toList, "24 words (256bits)".toList] ∧
    (∀ t : MnemonicType, MnemonicType.forWordCount t.wordCount = .ok t ∧ MnemonicType.forKeySize t.entropyBits = .ok t ∧
      3 * t.entropyBits = 32 * t.wordCount ∧ 3 * t.checksumBits = t.wordCount) ∧
    (∀ t t' : MnemonicType, t.display = t'.display → t = t') ∧
    (MnemonicType.default = .words12 ∧ Language.default = .english) := by
  refine ⟨by decide +kernel, ?_, ?_, rfl, rfl⟩
  · intro t
    cases t <;> decide +kernel
  · intro t t'
    cases t <;> cases t' <;> decide +kernel

-- 18 words
example : MnemonicType.words18.display = "18 words (192bits)".toList ∧ MnemonicType.forWordCount 18 = .ok .words18 ∧
    MnemonicType.forKeySize 192 = .ok .words18 := by
  decide +kernel

theorem utf8_inj {s t : Str} (h : utf8 s = utf8 t) : s = t := by
  have : String.ofList s = String.ofList t := by
    apply String.toByteArray_inj.1
    show s.utf8Encode = t.utf8Encode
    unfold List.utf8Encode
    exact congrArg _ h
  simpa using congrArg String.toList this

/-- An English phrase is encoded by bytes below 128. -/
theorem english_bytes (H : Hashes) (m : Mnemonic) (hm : Constructible H m) (hl : m.lang = .english) :
    ∀ b ∈ m.asBytes, b.toNat < 128 := by
  intro b hb
  unfold Mnemonic.asBytes utf8 at hb
  rw [if_neg (by rw [hl]; decide), List.mem_flatMap] at hb
  obtain ⟨c, hc, hb⟩ := hb
  have hlt : c.toNat < 128 := by
    rcases (C69_text_forms H m hm).2.2.2.1 c hc with rfl | ⟨_, _, h⟩ | ⟨h, _⟩
    · decide
    · rw [Char.le_def, UInt32.le_iff_toNat_le] at h
      exact Nat.lt_of_le_of_lt h (by decide)
    · rw [hl] at h; cases h
  have hv : c.val.toNat < 128 := hlt
  unfold String.utf8EncodeChar at hb
  rw [if_pos (by omega)] at hb
  simp only [List.mem_singleton] at hb
  subst hb
  simp only [Nat.toUInt8_eq, UInt8.toNat_ofNat']
  omega

/-- A Chinese phrase is encoded by bytes one of which is not ASCII. -/
theorem chinese_bytes (H : Hashes) (m : Mnemonic) (hm : Constructible H m) (hl : m.lang = .chineseSimplified) :
    ∃ b ∈ m.asBytes, 128 ≤ b.toNat := by
  obtain ⟨ws, idx, hp, hw, henc⟩ := constructible_shape H m hm
  have hne : ws ≠ [] := ne_nil_of_sizes (by rw [wordsAt_length hw]; exact henc.1)
  obtain ⟨w, ws', rfl⟩ := List.exists_cons_of_ne_nil hne
  have hmem := wordsAt_mem hw w (by simp)
  rw [hl, words_eq] at hmem
  obtain ⟨c, rfl, _⟩ := chinese_word hmem
  obtain ⟨k, hk, k1, k2, hkc⟩ := gb_of_word hmem
  refine ⟨UInt8.ofNat (k / 256), ?_, ?_⟩
  · unfold Mnemonic.asBytes
    rw [if_pos hl, List.mem_flatMap]
    refine ⟨c, ?_, by rw [hkc]; simp⟩
    rw [hp, ← spaced_eq_join]
    cases ws' <;> simp [spaced]
  · rw [UInt8.toNat_ofNat']
    omega

/-- **C71** The two inputs of PBKDF2, the phrase bytes and the salt, together determine the mnemonic (phrase, language and
entropy) and the NFKD form of the password: two wallets share a seed only if PBKDF2 collides. -/
theorem C71_seed_inputs_separate (H : Hashes) (m m' : Mnemonic) (hm : Constructible H m) (hm' : Constructible H m')
    (pw pw' : Str) :
    (∀ salt, IsNfkd ("mnemonic".toList ++ pw) salt →
      (Seed.new H m pw).bytes = pbkdf2T (hmac (sha512 H)) m.asBytes (utf8Of salt) 2047) ∧
    (m.asBytes = m'.asBytes ↔ m = m') ∧
    (∀ salt salt' npw npw', IsNfkd ("mnemonic".toList ++ pw) salt → IsNfkd ("mnemonic".toList ++ pw') salt' →
      IsNfkd pw npw → IsNfkd pw' npw' → (utf8Of salt = utf8Of salt' ↔ npw = npw')) := by
  simp only [isNfkd_iff]
  have hsalt : ∀ pw, nfkd ("mnemonic".toList ++ pw) = "mnemonic".toList ++ nfkd pw := by
    intro pw
    apply nfkd_inert_append
    intro c hc
    apply inert_ascii
    revert c
    decide
  refine ⟨?_, ?_, ?_⟩
  · rintro _ rfl
    rw [seed_bytes, hsalt]
    congr 1
  · constructor
    · intro h
      have hlang : m.lang = m'.lang := by
        cases hl : m.lang <;> cases hl' : m'.lang
        · rfl
        · obtain ⟨b, hb, h2⟩ := chinese_bytes H m' hm' hl'
          have := english_bytes H m hm hl b (by rw [h]; exact hb)
          omega
        · obtain ⟨b, hb, h2⟩ := chinese_bytes H m hm hl
          have := english_bytes H m' hm' hl' b (by rw [← h]; exact hb)
          omega
        · rfl
      have hphrase : m.phrase = m'.phrase := by
        cases hl : m.lang with
        | english =>
          unfold Mnemonic.asBytes at h
          rw [if_neg (by rw [hl]; decide), if_neg (by rw [← hlang, hl]; decide)] at h
          exact utf8_inj h
        | chineseSimplified =>
          exact C21_chinese_seed_input_partial H m m' hm hm' hl (hlang ▸ hl) h
      have h1 := (C69_text_forms H m hm).2.2.2.2.1
      have h2 := (C69_text_forms H m' hm').2.2.2.2.1
      rw [show m.display = m'.display from hphrase, hlang, h2] at h1
      simpa using h1.symm
    · intro h
      rw [h]
  · rintro _ _ _ _ rfl rfl rfl rfl
    rw [hsalt, hsalt]
    constructor
    · intro h
      exact List.append_cancel_left (utf8_inj h)
    · intro h
      rw [h]

-- two mnemonics with the same entropy in different languages
example (H : Hashes) : ∃ m m', Constructible H m ∧ Constructible H m' ∧ m.entropy = m'.entropy ∧ m ≠ m' := by
  obtain ⟨_, _, h, _⟩ := fromEntropyUnchecked_spec H (List.replicate 16 0) .chineseSimplified (by decide)
  obtain ⟨_, _, h', _⟩ := fromEntropyUnchecked_spec H (List.replicate 16 0) .english (by decide)
  exact ⟨_, _, .fromEntropy _ _ _ (by decide) ((fromEntropy_ok_iff H _ _ (by decide) _).mpr h),
    .fromEntropy _ _ _ (by decide) ((fromEntropy_ok_iff H _ _ (by decide) _).mpr h'), rfl, by simp⟩

end Kms.Props
