import Verif.Spec.Mnemonic
import Verif.Proofs.NfkdSpec
import Verif.Model.RealHashes
/-
C01–C10, C17, C18: mnemonic phrases.
-/
namespace Kms.Props
open Spec Bip39

theorem words_eq (l : Language) : l.wordlist = words l := by
  cases l
  · exact wordlist_english
  · exact wordlist_chinese

/-! ### helper: what a constructible mnemonic looks like -/

theorem fromEntropy_len (H : Hashes) (e : Bytes) (l : Language) (m : Mnemonic) (hsz : e.length < 2 ^ 61)
    (h : Mnemonic.fromEntropy H e l = .ok m) : e.length ∈ entropyLengths := by
  unfold Mnemonic.fromEntropy at h
  rw [Res.bind_eq_ok] at h
  obtain ⟨t, ht, _⟩ := h
  have hm : usizeMul e.length 8 = 8 * e.length := by
    unfold usizeMul
    rw [Nat.mod_eq_of_lt (by omega), Nat.mul_comm]
  rw [hm] at ht
  unfold MnemonicType.forKeySize at ht
  simp [entropyLengths]
  split at ht <;> first | omega | simp at ht

/-! ### a concrete case: the second test vector of BIP39, with the real SHA-256 -/

def vecEntropy : Bytes := List.replicate 16 0x7f
def vecPhrase : Str := "legal winner thank year wave sausage worth useful legal winner thank yellow".toList

theorem vec_fromEntropy :
    Mnemonic.fromEntropy Real.hashes vecEntropy .english = .ok ⟨vecPhrase, .english, vecEntropy⟩ := by
  unfold Mnemonic.fromEntropy Mnemonic.fromEntropyUnchecked
  rw [wordlist_english]
  decide +kernel

/-- **C05** `from_entropy` accepts exactly 16, 20, 24, 28 and 32 bytes; every other length is reported as
`InvalidKeysize` with the number of bits.  (Lengths below 2^61 bytes, so that `len * 8` does not wrap; longer
slices are the subject of C86.) -/
theorem C05_from_entropy_acceptance (H : Hashes) (e : Bytes) (l : Language) (hsz : e.length < 2 ^ 61) :
    ((∃ m, Mnemonic.fromEntropy H e l = .ok m) ↔ e.length ∈ entropyLengths) ∧
    (e.length ∉ entropyLengths → Mnemonic.fromEntropy H e l = .err (.invalidKeysize (8 * e.length))) ∧
    (∀ m, Mnemonic.fromEntropy H e l = .ok m → m.entropy = e ∧ m.lang = l) := by
  have hm : usizeMul e.length 8 = 8 * e.length := by
    unfold usizeMul
    rw [Nat.mod_eq_of_lt (by omega), Nat.mul_comm]
  refine ⟨⟨fun ⟨m, h⟩ => fromEntropy_len H e l m hsz h, ?_⟩, ?_, ?_⟩
  · intro he
    obtain ⟨ws, idx, h, _⟩ := fromEntropyUnchecked_spec H e l he
    exact ⟨_, (fromEntropy_ok_iff H e l he _).mpr h⟩
  · intro he
    have : MnemonicType.forKeySize (8 * e.length) = .err (.invalidKeysize (8 * e.length)) := by
      simp [entropyLengths] at he
      unfold MnemonicType.forKeySize
      split <;> first | rfl | (exfalso; omega)
    simp [Mnemonic.fromEntropy, hm, this]
  · intro m h
    have he := fromEntropy_len H e l m hsz h
    obtain ⟨ws, idx, h', _⟩ := fromEntropyUnchecked_spec H e l he
    rw [(fromEntropy_ok_iff H e l he _), h'] at h
    simp at h
    subst h
    exact ⟨rfl, rfl⟩

-- both outcomes occur
example : (∃ m, Mnemonic.fromEntropy Real.hashes vecEntropy .english = .ok m) ∧
    Mnemonic.fromEntropy Real.hashes (List.replicate 17 0x7f) .english = .err (.invalidKeysize 136) :=
  ⟨⟨_, vec_fromEntropy⟩, (C05_from_entropy_acceptance _ _ _ (by decide)).2.1 (by decide)⟩

/-- **C06** The phrase generated from `e` consists of `(8·len + len/4) / 11` words of the language separated by
single spaces; word `i` is the one whose number is the big-endian value of bits `11i … 11i+10` of `e` followed
by the first `len/4` bits of SHA-256(`e`). -/
theorem C06_bip39_layout (H : Hashes) (e : Bytes) (l : Language) (he : e.length ∈ entropyLengths) :
    ∃ m ws, Mnemonic.fromEntropy H e l = .ok m ∧ m.phrase = spaced ws ∧
      ws.length = (8 * e.length + e.length / 4) / 11 ∧
      ∀ i (hi : i < ws.length),
        (words l)[natOfBits (group 11 i (bitsOfBytes e ++ (bitsOfBytes (sha H e)).take (e.length / 4)))]? = some ws[i] := by
  obtain ⟨ws, idx, h, hw, henc, hlen, hget⟩ := fromEntropyUnchecked_spec H e l he
  refine ⟨_, ws, (fromEntropy_ok_iff H e l he _).mpr h, (spaced_eq_join ws).symm, ?_, ?_⟩
  · rw [wordsAt_length hw, hlen]
    simp [entropyLengths] at he
    rcases he with h | h | h | h | h <;> simp [h]
  · intro i hi
    have hi' : i < idx.length := by rw [← wordsAt_length hw]; exact hi
    rw [← words_eq]
    have := congrArg (fun L => L[i]?) hw
    simp only [List.getElem?_map, List.getElem?_eq_getElem hi, List.getElem?_eq_getElem hi', Option.map_some] at this
    have h2 := hget i hi'
    rw [Option.some_inj] at this
    rw [this, h2]
    rfl

-- the test vector has an allowed length, and its last word, number 2040 of the list counted from 0, holds the checksum
example : vecEntropy.length ∈ entropyLengths ∧ (words .english)[2040]? = some "yellow".toList ∧
    natOfBits (group 11 11 (bitsOfBytes vecEntropy ++ (bitsOfBytes (sha Real.hashes vecEntropy)).take 4)) = 2040 := by
  decide +kernel

/-- **C01** Whatever `from_entropy` produces, `from_phrase` reads back: same entropy, same phrase. -/
theorem C01_entropy_survives_phrase (H : Hashes) (e : Bytes) (l : Language) (m : Mnemonic) (hsz : e.length < 2 ^ 61)
    (h : Mnemonic.fromEntropy H e l = .ok m) :
    ∃ m2, Mnemonic.fromPhrase H m.phrase l = .ok m2 ∧ m2.entropy = e ∧ m2.phrase = m.phrase := by
  have he := fromEntropy_len H e l m hsz h
  obtain ⟨ws, idx, h', hw, henc, _⟩ := fromEntropyUnchecked_spec H e l he
  rw [(fromEntropy_ok_iff H e l he _), h'] at h
  simp at h
  subst h
  refine ⟨⟨join [' '] ws, l, e⟩, ?_, rfl, rfl⟩
  rw [fromPhrase_ok_iff]
  simp only [wordsAt_normal l hw]
  exact ⟨idx, hw, henc, trivial, trivial⟩

-- the hypothesis is met, whatever the hash, by every language
example (H : Hashes) (l : Language) : ∃ m, Mnemonic.fromEntropy H (List.replicate 32 0xA5) l = .ok m :=
  (C05_from_entropy_acceptance H _ l (by simp)).1.mpr (by simp [entropyLengths])

/-- The test vector read back. -/
theorem vec_fromPhrase :
    Mnemonic.fromPhrase Real.hashes vecPhrase .english = .ok ⟨vecPhrase, .english, vecEntropy⟩ := by
  obtain ⟨m2, h, h1, h2⟩ := C01_entropy_survives_phrase _ _ _ _ (by decide) vec_fromEntropy
  obtain ⟨_, _, _, _, hl⟩ := (fromPhrase_ok_iff _ _ _ _).mp h
  obtain ⟨p, l, e⟩ := m2
  cases h1; cases h2; cases hl
  exact h

theorem encodes_entropyLength {H : Hashes} {idx : List Nat} {e : Bytes} (h : Encodes (sha H) idx e) :
    e.length ∈ entropyLengths := by
  have := encodes_length (fun b => (H.sha256 b).2) h
  have hn := h.1
  simp [sizes] at hn
  simp [entropyLengths]
  omega

theorem encodes_unique {H : Hashes} {idx idx' : List Nat} {e : Bytes} (h : Encodes (sha H) idx e)
    (h' : Encodes (sha H) idx' e) : idx = idx' := by
  have l1 := encodes_length (fun b => (H.sha256 b).2) h
  have l2 := encodes_length (fun b => (H.sha256 b).2) h'
  have hl : idx.length = idx'.length := by
    have n1 := h.1
    have n2 := h'.1
    simp [sizes] at n1 n2
    omega
  apply flatMap_bits_inj _ _ h.2.1 h'.2.1
  rw [h.2.2, h'.2.2, hl]

/-- **C02** Every accepted phrase is the one `from_entropy` generates from its entropy; so two accepted phrases with
the same entropy (in the same language) are stored as the same phrase. -/
theorem C02_accepted_phrases_canonical (H : Hashes) (p : Str) (l : Language) (m : Mnemonic)
    (h : Mnemonic.fromPhrase H p l = .ok m) :
    (∃ m2, Mnemonic.fromEntropy H m.entropy l = .ok m2 ∧ m2.phrase = m.phrase) ∧
    (∀ p' m', Mnemonic.fromPhrase H p' l = .ok m' → m'.entropy = m.entropy → m'.phrase = m.phrase) := by
  have key : ∀ p m, Mnemonic.fromPhrase H p l = .ok m →
      ∃ m2, Mnemonic.fromEntropy H m.entropy l = .ok m2 ∧ m2.phrase = m.phrase := by
    intro p m h
    obtain ⟨idx, hw, henc, hp, hl⟩ := (fromPhrase_ok_iff H p l m).mp h
    have he := encodes_entropyLength henc
    obtain ⟨ws, idx', h', hw', henc', _⟩ := fromEntropyUnchecked_spec H m.entropy l he
    have : idx = idx' := encodes_unique henc henc'
    subst this
    have := wordsAt_words_unique hw hw'
    exact ⟨_, (fromEntropy_ok_iff H m.entropy l he _).mpr h', by rw [hp, this]⟩
  refine ⟨key p m h, ?_⟩
  intro p' m' h' he
  obtain ⟨m2, a1, a2⟩ := key p m h
  obtain ⟨m3, b1, b2⟩ := key p' m' h'
  rw [he, a1] at b1
  simp at b1
  rw [← b2, ← b1, a2]

-- the hypothesis is met
example : ∃ m, Mnemonic.fromPhrase Real.hashes vecPhrase .english = .ok m := ⟨_, vec_fromPhrase⟩

/-- **C03** `from_phrase(p)` succeeds exactly when the NFKD forms of the white-space separated pieces of `p` are words
of the language, with numbers that are the BIP39 encoding of some entropy; that entropy, the language and the
words separated by single spaces are what the mnemonic holds. -/
theorem C03_from_phrase_acceptance (H : Hashes) (p : Str) (l : Language) (m : Mnemonic) :
    Mnemonic.fromPhrase H p l = .ok m ↔
      ∃ ws idx, NormalWords p ws ∧ WordsAt (words l) ws idx ∧ Encodes (sha H) idx m.entropy ∧
        m.phrase = spaced ws ∧ m.lang = l := by
  rw [fromPhrase_ok_iff, words_eq]
  simp only [normalWords_iff, spaced_eq_join]
  constructor
  · rintro ⟨idx, h⟩
    exact ⟨_, idx, rfl, h⟩
  · rintro ⟨_, idx, rfl, h⟩
    exact ⟨idx, h⟩

-- a word list, and word numbers, that meet the right-hand side
example : ∃ ws idx, NormalWords vecPhrase ws ∧ WordsAt (words .english) ws idx ∧ Encodes (sha Real.hashes) idx vecEntropy ∧
    ws.length = 12 := by
  obtain ⟨ws, idx, h1, h2, h3, _⟩ := (C03_from_phrase_acceptance _ _ _ _).mp vec_fromPhrase
  refine ⟨ws, idx, h1, h2, h3, ?_⟩
  have hl := encodes_length (fun b => (Real.hashes.sha256 b).2) h3
  rw [wordsAt_length h2]
  have hv : vecEntropy.length = 16 := rfl
  rw [hv] at hl
  have hn := h3.1
  simp only [sizes, List.mem_cons, List.not_mem_nil, or_false] at hn
  omega

/-- The result of decoding a phrase as pieces separated by single spaces. -/
theorem phraseToEntropy_cases (H : Hashes) (p : Str) (l : Language) :
    (Mnemonic.phraseToEntropy H p l = .err .invalidWord ∧ ∃ w ∈ splitChar ' ' p, w ∉ words l) ∨
    (Mnemonic.phraseToEntropy H p l = .err (.invalidWordLength (splitChar ' ' p).length) ∧
      (∀ w ∈ splitChar ' ' p, w ∈ words l) ∧ (splitChar ' ' p).length ∉ sizes) ∨
    (∃ idx, WordsAt (words l) (splitChar ' ' p) idx ∧ idx.length ∈ sizes ∧
      ((∃ e, Encodes (sha H) idx e ∧ Mnemonic.phraseToEntropy H p l = .ok e) ∨
       ((¬ ∃ e, Encodes (sha H) idx e) ∧ Mnemonic.phraseToEntropy H p l = .err .invalidChecksum))) := by
  rw [← words_eq]
  by_cases hw : ∀ w ∈ splitChar ' ' p, w ∈ l.wordlist
  · obtain ⟨idx, hi⟩ := wordsAt_exists l _ hw
    have hl := wordsAt_length hi
    by_cases hn : idx.length ∈ sizes
    · right; right
      refine ⟨idx, hi, hn, ?_⟩
      obtain ⟨e, h1, h2, h3⟩ := phraseToEntropy_words H p l idx hi hn
      by_cases hx : ∃ e, Encodes (sha H) idx e
      · left
        obtain ⟨e', he'⟩ := hx
        exact ⟨e', he', (phraseToEntropy_ok_iff H p l e').mpr ⟨idx, hi, he'⟩⟩
      · right
        refine ⟨hx, ?_⟩
        rw [h3, if_neg]
        intro hc
        exact hx ⟨e, hn, wordsAt_lt hi, by rw [h2]; exact (by rw [sha, ← hc, List.take_append_drop])⟩
    · right; left
      rw [← hl] at hn
      exact ⟨phraseToEntropy_badLength H p l hw hn, hw, hn⟩
  · left
    push Not at hw
    exact ⟨phraseToEntropy_badWord H p l hw, hw⟩

/-- What `validate` / `from_phrase` report for a phrase whose pieces are `ws`. -/
def expectedError (H : Hashes) (l : Language) (ws : List Str) : Option ErrorKind → Prop
  | some .invalidWord => ∃ w ∈ ws, w ∉ words l
  | some (.invalidWordLength n) => (∀ w ∈ ws, w ∈ words l) ∧ n = ws.length ∧ n ∉ sizes
  | some .invalidChecksum => ∃ idx, WordsAt (words l) ws idx ∧ idx.length ∈ sizes ∧ ¬ ∃ e, Encodes (sha H) idx e
  | some _ => False
  | none => ∃ idx, WordsAt (words l) ws idx ∧ idx.length ∈ sizes ∧ ∃ e, Encodes (sha H) idx e

theorem phraseToEntropy_class (H : Hashes) (p : Str) (l : Language) :
    Mnemonic.phraseToEntropy H p l ≠ .panic ∧
    (∀ k, Mnemonic.phraseToEntropy H p l = .err k ↔ expectedError H l (splitChar ' ' p) (some k)) ∧
    ((∃ e, Mnemonic.phraseToEntropy H p l = .ok e) ↔ expectedError H l (splitChar ' ' p) none) := by
  rcases phraseToEntropy_cases H p l with ⟨h, w, hw1, hw2⟩ | ⟨h, hw, hn⟩ | ⟨idx, hi, hn, hx⟩
  · have nw : ∀ idx, ¬ WordsAt (words l) (splitChar ' ' p) idx := fun idx hi => hw2 (wordsAt_mem hi w hw1)
    rw [h]
    refine ⟨by simp, ?_, by simp [expectedError, nw]⟩
    intro k
    cases k <;> simp [expectedError, nw]
    · exact ⟨w, hw1, hw2⟩
    · intro hall; exact absurd (hall w hw1) hw2
  · have nl : ∀ idx, WordsAt (words l) (splitChar ' ' p) idx → idx.length ∉ sizes := by
      intro idx hi; rw [← wordsAt_length hi]; exact hn
    rw [h]
    refine ⟨by simp, ?_, ?_⟩
    · intro k
      cases k with
      | invalidWord => simp [expectedError]; exact hw
      | invalidWordLength n =>
        simp [expectedError]
        constructor
        · rintro rfl; exact ⟨hw, rfl, hn⟩
        · rintro ⟨_, rfl, _⟩; rfl
      | invalidChecksum =>
        simp [expectedError]
        intro idx hi hs
        exact absurd hs (nl idx hi)
      | invalidKeysize n => simp [expectedError]
      | invalidEntropyLength n t => simp [expectedError]
    · simp [expectedError]
      intro idx hi hs
      exact absurd hs (nl idx hi)
  · have hmem := wordsAt_mem hi
    have hlen := wordsAt_length hi
    have huniq : ∀ idx', WordsAt (words l) (splitChar ' ' p) idx' → idx' = idx := by
      intro idx' hi'
      rw [← words_eq] at hi hi'
      exact wordsAt_idx_unique hi' hi
    rcases hx with ⟨e, he, h⟩ | ⟨hne, h⟩
    · rw [h]
      refine ⟨by simp, ?_, ?_⟩
      · intro k
        cases k with
        | invalidWord => simp [expectedError]; exact hmem
        | invalidWordLength n =>
          simp [expectedError]
          intro _ hn'
          rw [hn', hlen]; exact hn
        | invalidChecksum =>
          simp only [expectedError, reduceCtorEq, false_iff]
          rintro ⟨idx', hi', _, hno⟩
          rw [huniq idx' hi'] at hno
          exact hno ⟨e, he⟩
        | invalidKeysize n => simp [expectedError]
        | invalidEntropyLength n t => simp [expectedError]
      · simp only [expectedError]
        exact ⟨fun _ => ⟨idx, hi, hn, e, he⟩, fun _ => ⟨e, rfl⟩⟩
    · rw [h]
      refine ⟨by simp, ?_, ?_⟩
      · intro k
        cases k with
        | invalidWord => simp [expectedError]; exact hmem
        | invalidWordLength n =>
          simp [expectedError]
          intro _ hn'
          rw [hn', hlen]; exact hn
        | invalidChecksum =>
          simp only [expectedError, true_iff]
          exact ⟨idx, hi, hn, hne⟩
        | invalidKeysize n => simp [expectedError]
        | invalidEntropyLength n t => simp [expectedError]
      · simp only [expectedError, reduceCtorEq, exists_false, false_iff]
        rintro ⟨idx', hi', _, hx⟩
        rw [huniq idx' hi'] at hx
        exact hne hx

/-- **C04** `from_phrase` and `validate` never panic.  They return `InvalidWord` iff some piece is not in the list;
`InvalidWordLength(n)` iff all `n` pieces are in the list but `n` is not a BIP39 size; `InvalidChecksum` iff the words and
their number are right but they encode no entropy; and `Ok` otherwise.  The pieces are the parts between single spaces: of the
given string for `validate`, of the normalised string for `from_phrase`. -/
theorem C04_error_classification (H : Hashes) (p : Str) (l : Language) :
    Mnemonic.validate H p l ≠ .panic ∧ Mnemonic.fromPhrase H p l ≠ .panic ∧
    (∃ ws, Pieces p ws ∧ (∀ k, Mnemonic.validate H p l = .err k ↔ expectedError H l ws (some k)) ∧
      (Mnemonic.validate H p l = .ok () ↔ expectedError H l ws none)) ∧
    (∃ vs ws, NormalWords p vs ∧ Pieces (spaced vs) ws ∧
      (∀ k, Mnemonic.fromPhrase H p l = .err k ↔ expectedError H l ws (some k)) ∧
      ((∃ m, Mnemonic.fromPhrase H p l = .ok m) ↔ expectedError H l ws none)) := by
  obtain ⟨a1, a2, a3⟩ := phraseToEntropy_class H p l
  obtain ⟨b1, b2, b3⟩ := phraseToEntropy_class H (join [' '] ((splitWhitespace p).map nfkd)) l
  refine ⟨?_, ?_, ⟨_, pieces_iff.2 rfl, ?_, ?_⟩, ⟨_, _, normalWords_iff.2 rfl, pieces_iff.2 rfl, ?_, ?_⟩⟩
  · unfold Mnemonic.validate
    cases h : Mnemonic.phraseToEntropy H p l <;> simp_all
  · unfold Mnemonic.fromPhrase Mnemonic.normalisePhrase
    cases h : Mnemonic.phraseToEntropy H (join [' '] ((splitWhitespace p).map nfkd)) l <;> simp_all
  · intro k
    rw [← a2 k]
    unfold Mnemonic.validate
    cases h : Mnemonic.phraseToEntropy H p l <;> simp
  · rw [← a3]
    unfold Mnemonic.validate
    cases h : Mnemonic.phraseToEntropy H p l <;> simp
  · intro k
    rw [spaced_eq_join, ← b2 k]
    unfold Mnemonic.fromPhrase Mnemonic.normalisePhrase
    cases h : Mnemonic.phraseToEntropy H (join [' '] ((splitWhitespace p).map nfkd)) l <;> simp [h]
  · rw [spaced_eq_join, ← b3]
    unfold Mnemonic.fromPhrase Mnemonic.normalisePhrase
    cases h : Mnemonic.phraseToEntropy H (join [' '] ((splitWhitespace p).map nfkd)) l <;> simp [h]

-- two of the four outcomes (the others are in Verif/Props/Vectors.lean)
example : Mnemonic.validate Real.hashes "legal".toList .english = .err (.invalidWordLength 1) ∧
    Mnemonic.validate Real.hashes [] .english = .err .invalidWord := by
  constructor
  · unfold Mnemonic.validate Mnemonic.phraseToEntropy Language.wordmap
    rw [wordlist_english]
    decide +kernel
  · unfold Mnemonic.validate Mnemonic.phraseToEntropy Language.wordmap
    rw [wordlist_english]
    decide +kernel

/-- An API user's mnemonic always holds list words spelling its entropy. -/
theorem constructible_shape (H : Hashes) (m : Mnemonic) (h : Constructible H m) :
    ∃ ws idx, m.phrase = join [' '] ws ∧ WordsAt m.lang.wordlist ws idx ∧ Encodes (sha H) idx m.entropy := by
  cases h with
  | new rng t l _ h =>
    have he : (rng (t.entropyBits / 8)).1.length ∈ entropyLengths := by
      rw [(rng _).2]; cases t <;> decide
    obtain ⟨ws, idx, h', hw, henc, _⟩ := fromEntropyUnchecked_spec H _ l he
    unfold Mnemonic.new at h
    rw [h'] at h; simp at h; subst h
    exact ⟨ws, idx, rfl, hw, henc⟩
  | fromEntropy e l _ hsz h =>
    have he := fromEntropy_len H e l m hsz h
    obtain ⟨ws, idx, h', hw, henc, _⟩ := fromEntropyUnchecked_spec H e l he
    rw [(fromEntropy_ok_iff H e l he _), h'] at h
    simp at h; subst h
    exact ⟨ws, idx, rfl, hw, henc⟩
  | fromPhrase p l _ h =>
    obtain ⟨idx, hw, henc, hp, hl⟩ := (fromPhrase_ok_iff H p l m).mp h
    exact ⟨_, idx, hp, by rw [hl]; exact hw, henc⟩

end Kms.Props
