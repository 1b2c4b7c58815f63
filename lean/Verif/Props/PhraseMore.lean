import Verif.Props.Phrase
import Verif.Proofs.Spells
/-
C07–C10, C14, C17, C18.
-/
namespace Kms.Props
open Spec Bip39

theorem validate_ok_iff (H : Hashes) (p : Str) (l : Language) :
    Mnemonic.validate H p l = .ok () ↔
      ∃ idx e, WordsAt l.wordlist (splitChar ' ' p) idx ∧ Encodes (sha H) idx e := by
  have : Mnemonic.validate H p l = .ok () ↔ ∃ e, Mnemonic.phraseToEntropy H p l = .ok e := by
    unfold Mnemonic.validate
    cases h : Mnemonic.phraseToEntropy H p l <;> simp
  rw [this]
  constructor
  · rintro ⟨e, h⟩
    obtain ⟨idx, h1, h2⟩ := (phraseToEntropy_ok_iff H p l e).mp h
    exact ⟨idx, e, h1, h2⟩
  · rintro ⟨idx, e, h1, h2⟩
    exact ⟨e, (phraseToEntropy_ok_iff H p l e).mpr ⟨idx, h1, h2⟩⟩

/-- A phrase of words encoding entropy validates and reads back. -/
theorem words_validate (H : Hashes) (l : Language) (ws : List Str) (idx : List Nat) (e : Bytes)
    (hw : WordsAt l.wordlist ws idx) (he : Encodes (sha H) idx e) :
    Mnemonic.validate H (join [' '] ws) l = .ok () ∧
    Mnemonic.fromPhrase H (join [' '] ws) l = .ok ⟨join [' '] ws, l, e⟩ := by
  have hne : ws ≠ [] := ne_nil_of_sizes (by rw [wordsAt_length hw]; exact he.1)
  constructor
  · rw [validate_ok_iff]
    exact ⟨idx, e, by rw [wordsAt_split l ws idx hw hne]; exact hw, he⟩
  · rw [fromPhrase_ok_iff]
    simp only [wordsAt_normal l hw]
    exact ⟨idx, hw, he, trivial, trivial⟩

/-- **C07** `Mnemonic::new`, whatever bytes the generator delivers: it does not panic, the entropy is exactly those bytes,
the phrase has the number of words of the type, all from the list, `validate` and `from_phrase` accept it, and different bytes give different
phrases. -/
theorem C07_new_valid_and_injective (H : Hashes) (t : MnemonicType) (l : Language) (rng : (n : Nat) → ByteArr n) :
    (∃ m, Mnemonic.new H rng t l = .ok m ∧ m.entropy = (rng (t.entropyBits / 8)).1 ∧
      (∃ ws, Pieces m.phrase ws ∧ ws.length = t.wordCount ∧ ∀ w ∈ ws, w ∈ words l) ∧
      Mnemonic.validate H m.phrase l = .ok () ∧ Mnemonic.fromPhrase H m.phrase l = .ok m) ∧
    (∀ rng' m m', Mnemonic.new H rng t l = .ok m → Mnemonic.new H rng' t l = .ok m' → m.phrase = m'.phrase →
      rng (t.entropyBits / 8) = rng' (t.entropyBits / 8)) := by
  have key : ∀ rng : (n : Nat) → ByteArr n, ∃ m, Mnemonic.new H rng t l = .ok m ∧ m.entropy = (rng (t.entropyBits / 8)).1 ∧
      (∃ ws, Pieces m.phrase ws ∧ ws.length = t.wordCount ∧ ∀ w ∈ ws, w ∈ words l) ∧
      Mnemonic.validate H m.phrase l = .ok () ∧ Mnemonic.fromPhrase H m.phrase l = .ok m := by
    intro rng
    have he : (rng (t.entropyBits / 8)).1.length ∈ entropyLengths := by
      rw [(rng _).2]; cases t <;> decide
    obtain ⟨ws, idx, h, hw, henc, hlen, _⟩ := fromEntropyUnchecked_spec H _ l he
    obtain ⟨v1, v2⟩ := words_validate H l ws idx _ hw henc
    have hne : ws ≠ [] := ne_nil_of_sizes (by rw [wordsAt_length hw]; exact henc.1)
    refine ⟨_, h, rfl, ⟨ws, pieces_iff.2 (wordsAt_split l ws idx hw hne), ?_, ?_⟩, v1, v2⟩
    · rw [wordsAt_length hw, hlen, (rng _).2]
      cases t <;> decide
    · rw [← words_eq]
      exact wordsAt_mem hw
  refine ⟨key rng, ?_⟩
  intro rng' m m' h h' hp
  obtain ⟨n, a1, a2, _, _, a3⟩ := key rng
  obtain ⟨n', b1, b2, _, _, b3⟩ := key rng'
  rw [h] at a1; rw [h'] at b1
  simp at a1 b1
  subst a1; subst b1
  rw [hp, b3] at a3
  simp at a3
  apply Subtype.ext
  rw [← a2, ← b2, a3]

-- the randomness of the test vector
example : Mnemonic.new Real.hashes (fun n => ⟨List.replicate n 0x7f, by simp⟩) .words12 .english =
    .ok ⟨vecPhrase, .english, vecEntropy⟩ := by
  have h := (fromEntropy_ok_iff Real.hashes vecEntropy .english (by decide) _).mp vec_fromEntropy
  exact h

/-- **C08** Strings made of the same pieces, with any amount and kind of Unicode white space around and between them,
give the same result; in particular the same as the pieces separated by single spaces. -/
theorem C08_whitespace_insensitive (H : Hashes) (s s' : Str) (ws : List Str) (l : Language)
    (h : Spells s ws) (h' : Spells s' ws) :
    Mnemonic.fromPhrase H s l = Mnemonic.fromPhrase H s' l ∧
    Mnemonic.fromPhrase H s l = Mnemonic.fromPhrase H (spaced ws) l := by
  have e := spells_iff.mp h
  have e' := spells_iff.mp h'
  have hc : splitWhitespace (spaced ws) = ws := by
    rw [spaced_eq_join]
    apply splitWhitespace_join
    intro w hw
    rw [← e] at hw
    exact mem_splitWhitespace hw
  simp [Mnemonic.fromPhrase, Mnemonic.normalisePhrase, e, e', hc]

example : Spells "  legal\t\nwinner 　 ".toList ["legal".toList, "winner".toList] := by
  rw [spells_iff]; decide

theorem badWord_of_alien (H : Hashes) (p : Str) (l : Language) {y : Char} (hy : alien y.toNat = true) (hm : y ∈ p) :
    Mnemonic.phraseToEntropy H p l = .err .invalidWord := by
  have hy' : y ≠ ' ' := by rintro rfl; revert hy; decide
  obtain ⟨q, hq, hyq⟩ := mem_piece hm hy'
  apply phraseToEntropy_badWord
  refine ⟨q, hq, fun hmem => ?_⟩
  rw [word_not_alien l hmem hyq] at hy
  simp at hy

/-- The facts behind C09, with the model's functions. -/
theorem nfkd_insensitive (H : Hashes) (l : Language) :
    (∀ p, Mnemonic.fromPhrase H (nfkd p) l = Mnemonic.fromPhrase H p l) ∧
    (∀ p p', nfkd p = nfkd p' → Mnemonic.fromPhrase H p l = Mnemonic.fromPhrase H p' l) ∧
    (∀ p p', (splitWhitespace p).map nfkd = (splitWhitespace p').map nfkd →
      Mnemonic.fromPhrase H p l = Mnemonic.fromPhrase H p' l) ∧
    (∀ p m, Mnemonic.fromPhrase H p l = .ok m → nfkd m.phrase = m.phrase) := by
  have first : ∀ p, Mnemonic.fromPhrase H (nfkd p) l = Mnemonic.fromPhrase H p l := by
    intro p
    by_cases hall : ∀ w ∈ splitWhitespace p, NoWs (nfkd w)
    · have := splitWhitespace_of_spells (spells_nfkd (spells_splitWhitespace p) hall)
      have : Mnemonic.normalisePhrase (nfkd p) = Mnemonic.normalisePhrase p := by
        unfold Mnemonic.normalisePhrase
        rw [this, List.map_map]
        congr 1
        exact List.map_congr_left fun w _ => nfkd_idem w
      simp [Mnemonic.fromPhrase, this]
    · have : ∃ w ∈ splitWhitespace p, ∃ x ∈ nfkd w, isWhitespace x = true := by
        simp only [NoWs] at hall
        push Not at hall
        obtain ⟨w, hw, x, hx, hxs⟩ := hall
        exact ⟨w, hw, x, hx, by simpa using hxs⟩
      obtain ⟨w, hw, x, hx, hxs⟩ := this
      obtain ⟨_, y, hy, ha⟩ := nfkd_space_alien (mem_splitWhitespace hw).2 hx hxs
      have hyws : isWhitespace y = false := by
        simp [alien] at ha; exact ha.2
      have m1 : y ∈ Mnemonic.normalisePhrase p :=
        mem_join ⟨nfkd w, List.mem_map.mpr ⟨w, hw, rfl⟩, hy⟩
      have m2 : y ∈ Mnemonic.normalisePhrase (nfkd p) := by
        obtain ⟨c, hc, hyc⟩ := mem_nfkd.mp hy
        have hcp : c ∈ p := (mem_of_spells (spells_splitWhitespace p) ((mem_splitWhitespace hw).2 c hc)).mpr ⟨w, hw, hc⟩
        have hyp : y ∈ nfkd p := mem_nfkd.mpr ⟨c, hcp, hyc⟩
        obtain ⟨v, hv, hyv⟩ := (mem_of_spells (spells_splitWhitespace (nfkd p)) hyws).mp hyp
        refine mem_join ⟨nfkd v, List.mem_map.mpr ⟨v, hv, rfl⟩, ?_⟩
        exact mem_nfkd.mpr ⟨y, hyv, by rw [decompose_fixed hyc]; simp⟩
      simp [Mnemonic.fromPhrase, badWord_of_alien H _ l ha m1, badWord_of_alien H _ l ha m2]
  refine ⟨first, ?_, ?_, ?_⟩
  · intro p p' h
    rw [← first p, ← first p', h]
  · intro p p' h
    simp [Mnemonic.fromPhrase, Mnemonic.normalisePhrase, h]
  · intro p m h
    obtain ⟨idx, _, _, hp, _⟩ := (fromPhrase_ok_iff H p l m).mp h
    rw [hp, nfkd_join, List.map_map]
    congr 1
    exact List.map_congr_left fun w _ => nfkd_idem w

/-- **C09** NFKD-equivalent input is equivalent input: replacing a string by its NFKD form, or by any other string with the
same NFKD form, or any of its pieces by an equivalent one, does not change the result of `from_phrase`; and the stored phrase
is in NFKD form. -/
theorem C09_nfkd_insensitive (H : Hashes) (l : Language) :
    (∀ p q, IsNfkd p q → Mnemonic.fromPhrase H q l = Mnemonic.fromPhrase H p l) ∧
    (∀ p p' q, IsNfkd p q → IsNfkd p' q → Mnemonic.fromPhrase H p l = Mnemonic.fromPhrase H p' l) ∧
    (∀ p p' ws, NormalWords p ws → NormalWords p' ws → Mnemonic.fromPhrase H p l = Mnemonic.fromPhrase H p' l) ∧
    (∀ p m, Mnemonic.fromPhrase H p l = .ok m → IsNfkd m.phrase m.phrase) := by
  obtain ⟨h1, h2, h3, h4⟩ := nfkd_insensitive H l
  simp only [isNfkd_iff, normalWords_iff]
  refine ⟨?_, ?_, ?_, h4⟩
  · rintro p _ rfl
    exact h1 p
  · intro p p' q h h'
    exact h2 p p' (h.trans h'.symm)
  · intro p p' ws h h'
    exact h3 p p' (h.trans h'.symm)

-- a non-trivial instance: full-width letters are NFKD-equivalent to ASCII
example : IsNfkd "ｌｅｇａｌ".toList "legal".toList := by
  rw [isNfkd_iff]
  decide +kernel
example : nfkd ['q', '\u0307', '\u0323'] = nfkd ['q', '\u0323', '\u0307'] := by decide +kernel

/-- **C10** `validate(p)` is `Ok` exactly when `from_phrase(p)` is `Ok` and stores the phrase as given. -/
theorem C10_validate_iff_verbatim (H : Hashes) (p : Str) (l : Language) :
    Mnemonic.validate H p l = .ok () ↔ ∃ m, Mnemonic.fromPhrase H p l = .ok m ∧ m.phrase = p := by
  constructor
  · intro h
    obtain ⟨idx, e, hw, he⟩ := (validate_ok_iff H p l).mp h
    have hj := join_splitChar ' ' p
    have := (words_validate H l _ idx e hw he).2
    rw [hj] at this
    exact ⟨_, this, rfl⟩
  · rintro ⟨m, h, hp⟩
    simp only [Mnemonic.fromPhrase, Res.bind_eq_ok] at h
    obtain ⟨e, h1, h2⟩ := h
    simp at h2
    subst h2
    simp at hp
    rw [hp] at h1
    simp [Mnemonic.validate, h1]

-- the right-hand side is met
example : Mnemonic.validate Real.hashes vecPhrase .english = .ok () :=
  (C10_validate_iff_verbatim _ _ _).mpr ⟨_, vec_fromPhrase, rfl⟩

/-- **C10, negative half** `validate` does not accept everything `from_phrase` accepts: whatever the hash, some string is
accepted by `from_phrase` and refused by `validate`. -/
theorem C10_validate_weaker (H : Hashes) (l : Language) :
    ∃ p m, Mnemonic.fromPhrase H p l = .ok m ∧ Mnemonic.validate H p l = .err .invalidWord := by
  have he : (List.replicate 16 (0 : UInt8)).length ∈ entropyLengths := by decide
  obtain ⟨ws, idx, h, hw, henc, _⟩ := fromEntropyUnchecked_spec H _ l he
  obtain ⟨v1, v2⟩ := words_validate H l ws idx _ hw henc
  refine ⟨' ' :: join [' '] ws, ⟨join [' '] ws, l, List.replicate 16 0⟩, ?_, ?_⟩
  · rw [← v2]
    simp [Mnemonic.fromPhrase, Mnemonic.normalisePhrase, splitWhitespace_ws_cons (show isWhitespace ' ' = true by decide)]
  · have : Mnemonic.phraseToEntropy H (' ' :: join [' '] ws) l = .err .invalidWord := by
      apply phraseToEntropy_badWord
      rw [splitChar_sep]
      exact ⟨[], by simp, fun hm => (wordlist_clean l _ hm).1 rfl⟩
    simp [Mnemonic.validate, this]

-- a valid phrase after a space
example : Mnemonic.fromPhrase Real.hashes (' ' :: vecPhrase) .english = .ok ⟨vecPhrase, .english, vecEntropy⟩ ∧
    Mnemonic.validate Real.hashes (' ' :: vecPhrase) .english = .err .invalidWord := by
  decide +kernel

/-- **C14** Language detection finds the language of every mnemonic a user can hold; on any string it answers by the first
white-space separated piece: English iff that is an English word, Chinese iff it is a Chinese one, `None` iff there is no such piece
or it is in neither list. -/
theorem C14_language_detection (H : Hashes) :
    (∀ m, Constructible H m → Language.fromPhrase m.phrase = some m.lang) ∧
    (∀ s l, Language.fromPhrase s = some l ↔ ∃ w ws, Spells s (w :: ws) ∧ w ∈ words l) ∧
    (∀ s, Language.fromPhrase s = none ↔ ∀ w ws, Spells s (w :: ws) → ∀ l, w ∉ words l) := by
  have dis : ∀ w, w ∈ words .english → w ∈ words .chineseSimplified → False := by
    intro w h1 h2
    rw [← words_eq] at h1 h2
    exact wordlists_disjoint h1 h2
  have main : ∀ s l, Language.fromPhrase s = some l ↔ ∃ w ws, Spells s (w :: ws) ∧ w ∈ words l := by
    intro s l
    unfold Language.fromPhrase
    cases hs : splitWhitespace s with
    | nil =>
      simp
      intro w ws hsp
      rw [spells_iff, hs] at hsp
      simp at hsp
    | cons w ws =>
      simp only [getBits_isOk_iff, words_eq]
      have un : ∀ w' ws', Spells s (w' :: ws') ↔ w' = w ∧ ws' = ws := by
        intro w' ws'
        rw [spells_iff, hs]; simp [eq_comm]
      constructor
      · intro h
        refine ⟨w, ws, (un w ws).mpr ⟨rfl, rfl⟩, ?_⟩
        split at h
        · simp at h; subst h; assumption
        · split at h
          · simp at h; subst h; assumption
          · simp at h
      · rintro ⟨w', ws', hsp, hm⟩
        obtain ⟨rfl, rfl⟩ := (un w' ws').mp hsp
        cases l
        · rw [if_pos hm]
        · rw [if_neg (fun h => dis _ h hm), if_pos hm]
  refine ⟨?_, main, ?_⟩
  · intro m hm
    obtain ⟨ws, idx, hp, hw, he⟩ := constructible_shape H m hm
    rw [main]
    have hne : ws ≠ [] := ne_nil_of_sizes (by rw [wordsAt_length hw]; exact he.1)
    obtain ⟨w, ws', rfl⟩ := List.exists_cons_of_ne_nil hne
    refine ⟨w, ws', ?_, ?_⟩
    · rw [hp, spells_iff]
      exact splitWhitespace_join _ fun v hv => wordlist_clean m.lang v (wordsAt_mem hw v hv)
    · rw [← words_eq]; exact wordsAt_mem hw w (by simp)
  · intro s
    constructor
    · intro h w ws hsp l hm
      have := (main s l).mpr ⟨w, ws, hsp, hm⟩
      rw [h] at this
      simp at this
    · intro h
      cases hf : Language.fromPhrase s with
      | none => rfl
      | some l =>
        obtain ⟨w, ws, hsp, hm⟩ := (main s l).mp hf
        exact absurd hm (h w ws hsp l)

-- a mnemonic a user can hold; a text that is no phrase but starts with a Chinese word; a text in neither language
example : Constructible Real.hashes ⟨vecPhrase, .english, vecEntropy⟩ ∧
    Language.fromPhrase " 的 legal".toList = some .chineseSimplified ∧ Language.fromPhrase "Legal".toList = none :=
  ⟨.fromPhrase _ _ _ vec_fromPhrase, by
    rw [(C14_language_detection Real.hashes).2.1]
    exact ⟨['的'], ["legal".toList], spells_iff.2 (by decide +kernel), by decide +kernel⟩, by
    rw [(C14_language_detection Real.hashes).2.2]
    intro w ws h l
    rw [spells_iff, show splitWhitespace "Legal".toList = ["Legal".toList] by decide +kernel] at h
    cases h
    cases l <;> decide +kernel⟩

/-- **C17** `MnemonicType::for_phrase` of an accepted phrase is the type of its entropy; for any text it only looks at the
number of spaces: it is the type with one word more than that, and if there is none, the error names that word count. -/
theorem C17_for_phrase (H : Hashes) :
    (∀ p l m, Mnemonic.fromPhrase H p l = .ok m →
      ∃ t, MnemonicType.forPhrase m.phrase = .ok t ∧ t.entropyBits = 8 * m.entropy.length) ∧
    (∀ p p' : Str, p.count ' ' = p'.count ' ' → MnemonicType.forPhrase p = MnemonicType.forPhrase p') ∧
    (∀ (p : Str) (t : MnemonicType), MnemonicType.forPhrase p = .ok t ↔ t.wordCount = p.count ' ' + 1) ∧
    (∀ p : Str, p.count ' ' + 1 ∉ sizes → MnemonicType.forPhrase p = .err (.invalidWordLength (p.count ' ' + 1))) := by
  refine ⟨?_, ?_, ?_, ?_⟩
  · intro p l m h
    obtain ⟨idx, hw, he, hp, hl⟩ := (fromPhrase_ok_iff H p l m).mp h
    have hne := ne_nil_of_sizes (show ((splitWhitespace p).map nfkd).length ∈ sizes by rw [wordsAt_length hw]; exact he.1)
    have hlen := encodes_length (fun b => (H.sha256 b).2) he
    rw [hp, MnemonicType.forPhrase, wordsAt_split l _ idx hw hne, wordsAt_length hw, hlen]
    have hn := he.1
    simp [sizes] at hn
    rcases hn with h | h | h | h | h <;> rw [h]
    · exact ⟨.words12, rfl, by decide⟩
    · exact ⟨.words15, rfl, by decide⟩
    · exact ⟨.words18, rfl, by decide⟩
    · exact ⟨.words21, rfl, by decide⟩
    · exact ⟨.words24, rfl, by decide⟩
  · intro p p' h
    simp [MnemonicType.forPhrase, splitChar_length, h]
  · intro p t
    rw [MnemonicType.forPhrase, splitChar_length]
    generalize p.count ' ' + 1 = k
    constructor
    · intro h
      by_cases hn : k ∈ sizes
      · simp [sizes] at hn
        rcases hn with hk | hk | hk | hk | hk <;> subst hk <;> cases h <;> decide
      · rw [forWordCount_err hn] at h
        cases h
    · rintro rfl
      cases t <;> rfl
  · intro p hn
    rw [MnemonicType.forPhrase, splitChar_length, forWordCount_err hn]

-- both outcomes
example : MnemonicType.forPhrase vecPhrase = .ok .words12 ∧
    MnemonicType.forPhrase "legal  winner".toList = .err (.invalidWordLength 3) := by decide

/-! ### C18 -/

theorem countP_block (B : Nat) (f : Nat → Nat) (hf : ∀ a, f a < B) (A : Nat) :
    (List.range (A * B)).countP (fun i => i % B == f (i / B)) = A := by
  induction A with
  | zero => simp
  | succ A ih =>
    rw [Nat.succ_mul, List.range_add, List.countP_append, ih, List.countP_map]
    congr 1
    have : (List.range B).countP ((fun i => i % B == f (i / B)) ∘ fun x => A * B + x) =
        (List.range B).countP (fun b => b == f A) := by
      apply List.countP_congr
      intro b hb
      simp at hb
      have h1 : (A * B + b) % B = b := by rw [Nat.add_comm, Nat.add_mul_mod_self_right, Nat.mod_eq_of_lt hb]
      have h2 : (A * B + b) / B = A := by
        rw [Nat.add_comm, Nat.add_mul_div_right _ _ (by omega), Nat.div_eq_of_lt hb, Nat.zero_add]
      simp [h1, h2]
    rw [this]
    exact List.count_eq_one_of_mem List.nodup_range (List.mem_range.mpr (hf A))

theorem wordsAt_snoc {wl ws : List Str} {w : Str} {i : Nat} {idx : List Nat} (h : WordsAt wl ws idx) (hi : wl[i]? = some w) :
    WordsAt wl (ws ++ [w]) (idx ++ [i]) := by
  unfold WordsAt at *
  simp [h, hi]

/-- **C18** However the first `n - 1` words are chosen from the list, exactly `2^(11 - n/3)` list words complete them to a
phrase that `validate` accepts (one in `2^(n/3)`). -/
theorem C18_checksum_strength (H : Hashes) (l : Language) (ws : List Str) (hmem : ∀ w ∈ ws, w ∈ words l)
    (hn : ws.length + 1 ∈ sizes) :
    ((words l).filter (fun w => (Mnemonic.validate H (spaced (ws ++ [w])) l).isOk)).length =
      2 ^ (11 - (ws.length + 1) / 3) := by
  rw [← words_eq] at hmem ⊢
  obtain ⟨idx, hi⟩ := wordsAt_exists l ws hmem
  have hlen := wordsAt_length hi
  rw [hlen] at hn ⊢
  have hk : idx.length + 1 = 3 * ((idx.length + 1) / 3) ∧ 4 ≤ (idx.length + 1) / 3 ∧ (idx.length + 1) / 3 ≤ 8 := by
    simp [sizes] at hn; omega
  generalize hkk : (idx.length + 1) / 3 = k at *
  -- the entropy selected by the top `11 - k` bits of the last word
  have hbytes : ∀ a : Nat, ∃ e : Bytes, e.length = 4 * k ∧
      bitsOfBytes e = idx.flatMap (bitsOfNat 11) ++ bitsOfNat (11 - k) a := by
    intro a
    apply exists_bytes_of_bits
    rw [List.length_append, flatMap_bits_length, bitsOfNat_length]; omega
  choose ent hent1 hent2 using hbytes
  let f : Nat → Nat := fun a => natOfBits ((bitsOfBytes (sha H (ent a))).take k)
  have hf : ∀ a, f a < 2 ^ k := by
    intro a
    refine Nat.lt_of_lt_of_le (natOfBits_lt _) (Nat.pow_le_pow_right (by decide) ?_)
    simp only [List.length_take]; omega
  have split11 : ∀ i, bitsOfNat 11 i = bitsOfNat (11 - k) (i / 2 ^ k) ++ bitsOfNat k i := by
    intro i
    apply natOfBits_inj
    · simp; omega
    · rw [natOfBits_append, natOfBits_bitsOfNat, natOfBits_bitsOfNat, natOfBits_bitsOfNat, bitsOfNat_length]
      have h11 : 2 ^ 11 = 2 ^ k * 2 ^ (11 - k) := by rw [← Nat.pow_add]; congr 1; omega
      rw [h11, Nat.mod_mul, Nat.mul_comm, Nat.add_comm]
  have hgood : ∀ i, i < 2048 → ((∃ e, Encodes (sha H) (idx ++ [i]) e) ↔ i % 2 ^ k = f (i / 2 ^ k)) := by
    intro i hi2
    have hbits : (idx ++ [i]).flatMap (bitsOfNat 11) = bitsOfBytes (ent (i / 2 ^ k)) ++ bitsOfNat k i := by
      rw [List.flatMap_append, hent2, List.append_assoc]
      simp [split11 i]
    have hl3 : (idx ++ [i]).length / 3 = k := by simp [hkk]
    have hshal : ∀ e, (bitsOfBytes (sha H e)).length = 256 := by
      intro e; rw [bitsOfBytes_length, sha, (H.sha256 e).2]
    constructor
    · rintro ⟨e, he⟩
      have hel := encodes_length (fun b => (H.sha256 b).2) he
      have hb := he.2.2
      rw [hbits, hl3] at hb
      rw [hl3] at hel
      obtain ⟨h1, h2⟩ := List.append_inj hb (by rw [bitsOfBytes_length, bitsOfBytes_length, hent1, hel])
      have := bitsOfBytes_inj h1
      subst this
      have := congrArg natOfBits h2
      rw [natOfBits_bitsOfNat] at this
      exact this
    · intro h
      refine ⟨ent (i / 2 ^ k), ?_, ?_, ?_⟩
      · simpa using hn
      · intro j hj
        simp at hj
        rcases hj with hj | rfl
        · exact wordsAt_lt hi j hj
        · exact hi2
      · rw [hbits, hl3]
        congr 1
        apply natOfBits_inj
        · rw [bitsOfNat_length, List.length_take, hshal]; omega
        · rw [natOfBits_bitsOfNat]; exact h
  have hval : ∀ i (hi2 : i < l.wordlist.length),
      (Mnemonic.validate H (spaced (ws ++ [l.wordlist[i]])) l).isOk = (i % 2 ^ k == f (i / 2 ^ k)) := by
    intro i hi2
    have hi3 : i < 2048 := by rwa [wordlist_length] at hi2
    have hsn : WordsAt l.wordlist (ws ++ [l.wordlist[i]]) (idx ++ [i]) :=
      wordsAt_snoc hi (List.getElem?_eq_getElem hi2)
    have : (Mnemonic.validate H (spaced (ws ++ [l.wordlist[i]])) l).isOk = true ↔
        Mnemonic.validate H (spaced (ws ++ [l.wordlist[i]])) l = .ok () := by
      cases Mnemonic.validate H (spaced (ws ++ [l.wordlist[i]])) l <;> simp [Res.isOk]
    rw [Bool.eq_iff_iff, this, validate_ok_iff, spaced_eq_join, wordsAt_split l _ _ hsn (by simp), beq_iff_eq,
      ← hgood i hi3]
    constructor
    · rintro ⟨idx', e, h1, h2⟩
      rw [wordsAt_idx_unique h1 hsn] at h2
      exact ⟨e, h2⟩
    · rintro ⟨e, h2⟩
      exact ⟨_, e, hsn, h2⟩
  have hmap : l.wordlist = (List.range 2048).map (fun i => l.wordlist.getD i []) := by
    apply List.ext_getElem
    · simp [wordlist_length]
    · intro i h1 h2
      simp [h1]
  rw [← List.countP_eq_length_filter]
  conv_lhs => rw [hmap]
  rw [List.countP_map]
  have : (List.range 2048).countP ((fun w => (Mnemonic.validate H (spaced (ws ++ [w])) l).isOk) ∘
        fun i => l.wordlist.getD i []) =
      (List.range (2 ^ (11 - k) * 2 ^ k)).countP (fun i => i % 2 ^ k == f (i / 2 ^ k)) := by
    have h2048 : 2 ^ (11 - k) * 2 ^ k = 2048 := by rw [← Nat.pow_add]; rw [show 11 - k + k = 11 by omega]
    rw [h2048]
    apply List.countP_congr
    intro i hi2
    simp at hi2
    have hi3 : i < l.wordlist.length := by rw [wordlist_length]; exact hi2
    simp only [Function.comp_apply, List.getD_eq_getElem?_getD, List.getElem?_eq_getElem hi3, Option.getD_some]
    rw [hval i hi3]
  rw [this, countP_block _ f hf]

-- eleven times the first English word: 128 of the 2048 words complete it
example (H : Hashes) : ((words .english).filter (fun w =>
    (Mnemonic.validate H (spaced (List.replicate 11 "abandon".toList ++ [w])) .english).isOk)).length = 128 :=
  C18_checksum_strength H .english (List.replicate 11 "abandon".toList)
    (by intro w hw; rw [List.eq_of_mem_replicate hw]; decide +kernel) (by decide)

end Kms.Props
