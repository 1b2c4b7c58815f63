import Verif.Spec.Hex
import Verif.Proofs.Seed
import Verif.Props.Phrase
import Verif.Model.RealHashes
/-
Properties C19 to C22: seeds and hex printing.
-/
namespace Kms.Props
open Kms.Bip39 Kms.Spec

/-- SHA-512 as a function on byte strings. -/
def sha512 (H : Hashes) : Bytes → Bytes := fun b => (H.sha512 b).1

theorem hmac_length (H : Hashes) (k m : Bytes) : (hmac (sha512 H) k m).length = 64 := (H.sha512 _).2

/-- The bytes of an ASCII text. -/
def asciiBytes (s : String) : Bytes := s.toList.map (fun c => UInt8.ofNat c.toNat)

/-- What `Seed::new` computes, for any mnemonic value. -/
theorem seed_bytes (H : Hashes) (m : Mnemonic) (pw : Str) :
    (Seed.new H m pw).bytes =
      pbkdf2T (hmac (sha512 H)) m.asBytes (asciiBytes "mnemonic" ++ utf8 (nfkd pw)) 2047 := by
  have hsalt : nfkd (Seed.salt pw) = "mnemonic".toList ++ nfkd pw := by
    unfold Seed.salt
    apply nfkd_inert_append
    intro c hc
    apply inert_ascii
    revert c
    decide
  have hutf : utf8 ("mnemonic".toList ++ nfkd pw) = asciiBytes "mnemonic" ++ utf8 (nfkd pw) := by
    unfold utf8
    rw [List.flatMap_append]
    congr 1
  unfold Seed.new Hashes.pbkdf2
  simp only [hsalt, hutf]
  exact pbkdf2Body_spec H _ _ 2047

/-- C19. Every seed has 64 bytes. -/
theorem C19_seed_length (H : Hashes) (m : Mnemonic) (pw : Str) : (Seed.new H m pw).bytes.length = 64 := by
  rw [seed_bytes]
  exact pbkdf2T_length _ (hmac_length H) _ _ _

-- there are mnemonics, and different passwords: the statement has no hypothesis
example (H : Hashes) : (Seed.new H ⟨"legal winner".toList, .english, []⟩ "TREZOR".toList).bytes.length = 64 :=
  C19_seed_length H _ _

theorem mem_spaced (ws : List Str) (c : Char) (h : c ∈ spaced ws) : c = ' ' ∨ ∃ w ∈ ws, c ∈ w := by
  induction ws with
  | nil => simp [spaced] at h
  | cons w ws ih =>
    cases ws with
    | nil => exact Or.inr ⟨w, by simp, by simpa [spaced] using h⟩
    | cons v ws =>
      rw [spaced, List.mem_append, List.mem_cons] at h
      · rcases h with h | h | h
        · exact Or.inr ⟨w, by simp, h⟩
        · exact Or.inl h
        · rcases ih h with h | ⟨x, hx, hc⟩
          · exact Or.inl h
          · exact Or.inr ⟨x, by simp at hx ⊢; tauto, hc⟩
      · simp

/-- Every character of a constructible Chinese phrase is a space or a list character, so the table behind
`gb18030Char` is only ever asked about what it contains. -/
theorem mnemonic_gb_chars (H : Hashes) (m : Mnemonic) (hm : Constructible H m) (hl : m.lang = .chineseSimplified) :
    ∀ c ∈ m.phrase, c = ' ' ∨ [c] ∈ Data.chineseSimplified := by
  obtain ⟨ws, idx, hp, hw, henc⟩ := constructible_shape H m hm
  intro c hc
  rw [hp] at hc
  rcases mem_spaced ws c (by rw [spaced_eq_join]; exact hc) with h | ⟨w, hw', hc'⟩
  · exact Or.inl h
  · right
    have := wordsAt_mem hw w hw'
    rw [hl, words_eq] at this
    obtain ⟨d, rfl, -⟩ := chinese_word this
    simp at hc'
    subst hc'
    exact this

/-- The bytes of a phrase that go into PBKDF2: its GB18030 encoding for Chinese, UTF-8 for English. -/
def PhraseBytes (m : Mnemonic) (b : Bytes) : Prop :=
  match m.lang with
  | .english => b = utf8Of m.phrase
  | .chineseSimplified => IsGb m.phrase b

theorem gb_isGb (s : Str) (hs : ∀ c ∈ s, c = ' ' ∨ [c] ∈ Data.chineseSimplified) : IsGb s (s.flatMap Mnemonic.gb18030Char) := by
  induction s with
  | nil => exact .nil
  | cons c s ih =>
    have ih := ih (fun d hd => hs d (by simp [hd]))
    rw [List.flatMap_cons]
    rcases hs c (by simp) with rfl | hc
    · rw [gb_space]
      exact .space _ _ ih
    · obtain ⟨code, hm, h1, h2, e⟩ := gb_of_word hc
      rw [e]
      refine .han c _ _ _ _ ?_ ih
      have : (UInt8.ofNat (code / 256)).toNat * 256 + (UInt8.ofNat code).toNat = code := by
        rw [UInt8.toNat_ofNat', UInt8.toNat_ofNat']
        omega
      rw [this]
      exact hm

/-- C20. The seed is PBKDF2-HMAC-SHA512 (one 64-byte block, 2048 rounds) of the bytes of the phrase, which `as_bytes`
returns, with the salt `"mnemonic"` followed by the NFKD form of the password, in UTF-8.  For English the bytes of the phrase
are its UTF-8 encoding, as BIP39 prescribes, and the phrase is in NFKD form already (for Chinese see C21).  Passwords with the same
NFKD form give the same seed. -/
theorem C20_seed_is_pbkdf2 (H : Hashes) :
    (∀ m pw npw, Constructible H m → IsNfkd pw npw → ∃ b, PhraseBytes m b ∧ m.asBytes = b ∧ (Seed.new H m pw).bytes =
      pbkdf2T (hmac (sha512 H)) b (asciiBytes "mnemonic" ++ utf8Of npw) 2047) ∧
    (∀ m pw npw, Constructible H m → m.lang = .english → IsNfkd pw npw → IsNfkd m.phrase m.phrase ∧ (Seed.new H m pw).bytes =
      pbkdf2T (hmac (sha512 H)) (utf8Of m.phrase) (asciiBytes "mnemonic" ++ utf8Of npw) 2047) ∧
    (∀ m pw pw' npw, IsNfkd pw npw → IsNfkd pw' npw → Seed.new H m pw = Seed.new H m pw') := by
  simp only [isNfkd_iff]
  have heq : ∀ m pw pw', nfkd pw = nfkd pw' → Seed.new H m pw = Seed.new H m pw' := by
    intro m pw pw' h
    have : (Seed.new H m pw).bytes = (Seed.new H m pw').bytes := by rw [seed_bytes, seed_bytes, h]
    cases h1 : Seed.new H m pw; cases h2 : Seed.new H m pw'
    rw [h1, h2] at this
    simpa using this
  refine ⟨?_, ?_, fun m pw pw' npw h h' => heq m pw pw' (h.trans h'.symm)⟩
  · rintro m pw _ hm rfl
    refine ⟨m.asBytes, ?_, rfl, seed_bytes H m pw⟩
    unfold PhraseBytes Mnemonic.asBytes
    cases hl : m.lang with
    | english => rw [if_neg (by decide)]; rfl
    | chineseSimplified =>
      rw [if_pos rfl]
      exact gb_isGb _ (mnemonic_gb_chars H m hm hl)
  · rintro m pw _ hm hl rfl
    obtain ⟨ws, idx, hp, hw, henc⟩ := constructible_shape H m hm
    refine ⟨?_, ?_⟩
    · rw [hp, nfkd_join]
      congr 1
      conv_rhs => rw [← List.map_id ws]
      apply List.map_congr_left
      intro w hw'
      exact nfkd_word m.lang (wordsAt_mem hw w hw')
    · rw [seed_bytes]
      unfold Mnemonic.asBytes
      rw [if_neg (by rw [hl]; decide)]
      rfl

/-- `e` with an acute accent, composed and decomposed, are the same password. -/
example (H : Hashes) (m : Mnemonic) :
    Seed.new H m ['é'] = Seed.new H m ['e', '\u0301'] :=
  (C20_seed_is_pbkdf2 H).2.2 m _ _ ['e', '\u0301'] (isNfkd_iff.2 (by decide +kernel)) (isNfkd_iff.2 (by decide +kernel))

theorem utf8_char_han {c : Char} (h : isHan c = true) : (String.utf8EncodeChar c).length = 3 := by
  simp [isHan] at h
  rw [String.length_utf8EncodeChar]
  unfold Char.utf8Size
  have e : c.val.toNat = c.toNat := rfl
  have h1 : ¬ c.val ≤ 0x7f := by rw [UInt32.le_iff_toNat_le, e]; simp; omega
  have h2 : ¬ c.val ≤ 0x7ff := by rw [UInt32.le_iff_toNat_le, e]; simp; omega
  have h3 : c.val ≤ 0xffff := by rw [UInt32.le_iff_toNat_le, e]; simp; omega
  simp [h1, h2, h3]

/-- C21 is false: for every Chinese mnemonic that can be constructed the bytes that go into PBKDF2 are the
GB18030 encoding of the phrase, not the UTF-8 encoding that BIP39 prescribes (they are fewer). -/
theorem C21_chinese_seed_input_not_utf8 (H : Hashes) (m : Mnemonic) (hm : Constructible H m)
    (hl : m.lang = .chineseSimplified) :
    IsGb m.phrase m.asBytes ∧ m.asBytes ≠ utf8Of m.phrase ∧ m.asBytes.length < (utf8Of m.phrase).length := by
  have key : m.asBytes.length < (utf8Of m.phrase).length := by
    have hch := mnemonic_gb_chars H m hm hl
    have hne : ∃ c ∈ m.phrase, c ≠ ' ' := by
      obtain ⟨ws, idx, hp, hw, henc⟩ := constructible_shape H m hm
      have hlen := wordsAt_length hw
      cases ws with
      | nil => have := henc.1; rw [← hlen] at this; simp [sizes] at this
      | cons w ws =>
        have hmem := wordsAt_mem hw w (by simp)
        rw [hl, words_eq] at hmem
        obtain ⟨d, rfl, hd⟩ := chinese_word hmem
        refine ⟨d, ?_, ?_⟩
        · rw [hp, ← spaced_eq_join]
          cases ws <;> simp [spaced]
        · rintro rfl; exact absurd hd (by decide)
    unfold Mnemonic.asBytes
    rw [if_pos hl]
    unfold utf8Of
    generalize m.phrase = s at *
    have le1 : ∀ c, (c = ' ' ∨ [c] ∈ Data.chineseSimplified) →
        (Mnemonic.gb18030Char c).length ≤ (String.utf8EncodeChar c).length := by
      rintro c (rfl | hc)
      · rw [gb_space]; decide
      · obtain ⟨a, b, e, -⟩ := gb_head hc
        obtain ⟨d, hd, hh⟩ := chinese_word hc
        simp at hd; subst hd
        rw [e, utf8_char_han hh]; simp
    have le2 : ∀ c, [c] ∈ Data.chineseSimplified →
        (Mnemonic.gb18030Char c).length < (String.utf8EncodeChar c).length := by
      intro c hc
      obtain ⟨a, b, e, -⟩ := gb_head hc
      obtain ⟨d, hd, hh⟩ := chinese_word hc
      simp at hd; subst hd
      rw [e, utf8_char_han hh]; simp
    have leAll : ∀ s : Str, (∀ c ∈ s, c = ' ' ∨ [c] ∈ Data.chineseSimplified) →
        (s.flatMap Mnemonic.gb18030Char).length ≤ (s.flatMap String.utf8EncodeChar).length := by
      intro s hs
      induction s with
      | nil => simp
      | cons c s ih =>
        rw [List.flatMap_cons, List.flatMap_cons, List.length_append, List.length_append]
        have := le1 c (hs c (by simp))
        have := ih (fun d hd => hs d (by simp [hd]))
        omega
    clear hm hl
    induction s with
    | nil => simp at hne
    | cons c s ih =>
      rw [List.flatMap_cons, List.flatMap_cons, List.length_append, List.length_append]
      by_cases hc : c = ' '
      · have := ih (fun d hd => hch d (by simp [hd])) (by
          obtain ⟨d, hd, hd'⟩ := hne
          rcases List.mem_cons.mp hd with rfl | hd
          · exact absurd hc hd'
          · exact ⟨d, hd, hd'⟩)
        have := le1 c (hch c (by simp))
        omega
      · have := le2 c ((hch c (by simp)).resolve_left hc)
        have := leAll s (fun d hd => hch d (by simp [hd]))
        omega
  refine ⟨?_, fun h => by rw [h] at key; omega, key⟩
  unfold Mnemonic.asBytes
  rw [if_pos hl]
  exact gb_isGb _ (mnemonic_gb_chars H m hm hl)

/-- C21, the part that holds (full statement: `m.asBytes = utf8Of m.phrase` also for Chinese; missing: the code does
not do that).  The bytes fed to PBKDF2 still determine the phrase. -/
theorem C21_chinese_seed_input_partial (H : Hashes) (m m' : Mnemonic) (hm : Constructible H m)
    (hm' : Constructible H m') (hl : m.lang = .chineseSimplified) (hl' : m'.lang = .chineseSimplified)
    (h : m.asBytes = m'.asBytes) : m.phrase = m'.phrase := by
  unfold Mnemonic.asBytes at h
  rw [if_pos hl, if_pos hl'] at h
  exact gb_flatMap_inj _ _ (mnemonic_gb_chars H m hm hl) (mnemonic_gb_chars H m' hm' hl') h

/-! ### hex -/

-- Chinese mnemonics can be held
example (H : Hashes) : ∃ m, Constructible H m ∧ m.lang = .chineseSimplified ∧ m.entropy = List.replicate 16 0 := by
  obtain ⟨ws, idx, h, _, _, _⟩ := fromEntropyUnchecked_spec H (List.replicate 16 0) .chineseSimplified (by decide)
  exact ⟨_, .fromEntropy _ _ _ (by decide) ((fromEntropy_ok_iff H _ _ (by decide) _).mpr h), rfl, rfl⟩

theorem hexDigit_spec : ∀ upper : Bool, ∀ n < 16,
    hexVal (hexDigit upper n) = some n ∧ hexDigit upper n ∈ hexAlphabet upper := by decide

theorem unhex_hexBytes (upper : Bool) (bs : Bytes) : unhex (hexBytes upper bs) = some bs := by
  unfold hexBytes
  induction bs with
  | nil => rfl
  | cons b bs ih =>
    have hb : b.toNat < 256 := b.toNat_lt
    rw [List.flatMap_cons]
    rw [show hexByte upper b = [hexDigit upper (b.toNat / 16), hexDigit upper (b.toNat % 16)] from rfl]
    simp only [List.cons_append, List.nil_append, unhex]
    rw [(hexDigit_spec upper (b.toNat / 16) (by omega)).1, (hexDigit_spec upper (b.toNat % 16) (by omega)).1, ih]
    simp only [Option.bind_eq_bind, Option.bind_some, Option.some.injEq, List.cons.injEq, and_true]
    rw [show 16 * (b.toNat / 16) + b.toNat % 16 = b.toNat by omega]
    simp

theorem hexBytes_alphabet (upper : Bool) (bs : Bytes) : ∀ c ∈ hexBytes upper bs, c ∈ hexAlphabet upper := by
  intro c hc
  unfold hexBytes hexByte at hc
  rw [List.mem_flatMap] at hc
  obtain ⟨b, _, hc⟩ := hc
  have hb : b.toNat < 256 := b.toNat_lt
  simp only [List.mem_cons, List.not_mem_nil, or_false] at hc
  rcases hc with rfl | rfl
  · exact (hexDigit_spec upper _ (by omega)).2
  · exact (hexDigit_spec upper _ (by omega)).2

/-- C22. `{:x}` and `{:X}` of a seed or mnemonic print two digits of the right case per byte and read back to the
bytes (of the seed, of the entropy); `{:#x}`, `{:#X}` print the same after `0x`; `Debug` of a seed is `{:#X}`. -/
theorem C22_hex_formatting (upper : Bool) :
    (∀ s : Seed, unhex (s.fmtHex upper false) = some s.bytes ∧
      (s.fmtHex upper false).length = 2 * s.bytes.length ∧
      (∀ c ∈ s.fmtHex upper false, c ∈ hexAlphabet upper) ∧
      s.fmtHex upper true = "0x".toList ++ s.fmtHex upper false ∧
      s.fmtDebug = s.fmtHex true true) ∧
    (∀ m : Mnemonic, unhex (m.fmtHex upper false) = some m.entropy ∧
      (m.fmtHex upper false).length = 2 * m.entropy.length ∧
      (∀ c ∈ m.fmtHex upper false, c ∈ hexAlphabet upper) ∧
      m.fmtHex upper true = "0x".toList ++ m.fmtHex upper false) := by
  have hl : ∀ bs, (hexBytes upper bs).length = 2 * bs.length := by
    intro bs
    unfold hexBytes hexByte
    induction bs with
    | nil => rfl
    | cons b bs ih => rw [List.flatMap_cons, List.length_append, ih]; simp; omega
  constructor
  · intro s
    refine ⟨?_, ?_, ?_, rfl, rfl⟩
    · exact unhex_hexBytes upper s.bytes
    · exact hl s.bytes
    · exact hexBytes_alphabet upper s.bytes
  · intro m
    refine ⟨?_, ?_, ?_, rfl⟩
    · exact unhex_hexBytes upper m.entropy
    · exact hl m.entropy
    · exact hexBytes_alphabet upper m.entropy

example : (Seed.mk [0x0A, 0xF0]).fmtHex false false = "0af0".toList ∧ (Seed.mk [0x0A, 0xF0]).fmtDebug = "0x0AF0".toList := by
  decide

end Kms.Props
