import Verif.Proofs.AllWords
import Verif.Proofs.Mnemonic
/-
Mnemonics over the eight word lists: the lemmas of Proofs/Language.lean and Proofs/Mnemonic.lean for `All.Lang`.
-/
namespace Kms.Bip39.All
open Kms.Spec Language

theorem wordmap_apply (l : Lang) (w : Str) :
    l.wordmap w = if w ∈ l.wordlist then some (BitVec.ofNat 16 (l.wordlist.idxOf w)) else none := by
  unfold Lang.wordmap genWordmap
  rw [genWordmap_aux _ _ _ (wordlist_nodup l)]; simp

theorem getBits_eq_ok_iff (l : Lang) (w : Str) (b : Bits11) :
    getBits l.wordmap w = .ok b ↔ l.wordlist[b.toNat]? = some w := by
  unfold getBits
  rw [wordmap_apply]
  have hlen := wordlist_length l
  constructor
  · intro h
    split at h
    · rename_i n hn
      split at hn
      · rename_i hm
        simp at hn h
        subst h; subst hn
        have : l.wordlist.idxOf w < l.wordlist.length := List.idxOf_lt_length_of_mem hm
        rw [BitVec.toNat_ofNat, Nat.mod_eq_of_lt (by omega)]
        exact List.getElem?_idxOf hm
      · simp at hn
    · simp at h
  · intro h
    have hm : w ∈ l.wordlist := List.mem_of_getElem? h
    rw [if_pos hm]
    obtain ⟨hlt, hget⟩ := List.getElem?_eq_some_iff.mp h
    have : l.wordlist.idxOf w = b.toNat := by
      rw [← hget]; exact (wordlist_nodup l).idxOf_getElem _ hlt
    simp [this]

theorem getBits_eq_err_iff (l : Lang) (w : Str) (e : ErrorKind) :
    getBits l.wordmap w = .err e ↔ e = .invalidWord ∧ w ∉ l.wordlist := by
  unfold getBits
  rw [wordmap_apply]
  by_cases h : w ∈ l.wordlist <;> simp [h, eq_comm]

theorem getBits_ne_panic (l : Lang) (w : Str) : getBits l.wordmap w ≠ .panic := by
  unfold getBits; split <;> simp

theorem getBits_isOk_iff (l : Lang) (w : Str) : (getBits l.wordmap w).isOk = true ↔ w ∈ l.wordlist := by
  unfold getBits
  rw [wordmap_apply]
  by_cases h : w ∈ l.wordlist <;> simp [h, Res.isOk]

theorem getWord_eq_ok_iff (l : Lang) (b : Bits11) (w : Str) :
    getWord l.wordlist b = .ok w ↔ l.wordlist[b.toNat]? = some w := by
  unfold getWord; split <;> simp_all

theorem getWord_of_lt (l : Lang) (b : Bits11) (h : b.toNat < 2048) :
    ∃ w, w ∈ l.wordlist ∧ getWord l.wordlist b = .ok w := by
  have hl : b.toNat < l.wordlist.length := by rw [wordlist_length]; exact h
  exact ⟨l.wordlist[b.toNat], List.getElem_mem hl, by rw [getWord_eq_ok_iff]; simp [hl]⟩

theorem wordsAt_lt {l : Lang} {ws : List Str} {idx : List Nat} (h : WordsAt l.wordlist ws idx) :
    ∀ i ∈ idx, i < 2048 := by
  induction ws generalizing idx with
  | nil =>
    cases idx with
    | nil => simp
    | cons i idx => simp [WordsAt] at h
  | cons w ws ih =>
    cases idx with
    | nil => simp
    | cons i idx =>
      rw [wordsAt_cons] at h
      intro j hj
      simp at hj
      rcases hj with rfl | hj
      · have := (List.getElem?_eq_some_iff.mp h.1).1
        rwa [wordlist_length] at this
      · exact ih h.2 j hj

theorem wordsAt_exists (l : Lang) (ws : List Str) (h : ∀ w ∈ ws, w ∈ l.wordlist) :
    ∃ idx, WordsAt l.wordlist ws idx := by
  induction ws with
  | nil => exact ⟨[], rfl⟩
  | cons w ws ih =>
    obtain ⟨idx, hi⟩ := ih (fun v hv => h v (by simp [hv]))
    obtain ⟨i, hl, hg⟩ := List.getElem_of_mem (h w (by simp))
    exact ⟨i :: idx, wordsAt_cons.mpr ⟨by rw [List.getElem?_eq_getElem hl, hg], hi⟩⟩

theorem wordsAt_idx_unique {l : Lang} {ws : List Str} {idx idx' : List Nat}
    (h : WordsAt l.wordlist ws idx) (h' : WordsAt l.wordlist ws idx') : idx = idx' := by
  induction ws generalizing idx idx' with
  | nil =>
    have h1 := wordsAt_length h
    have h2 := wordsAt_length h'
    simp at h1 h2
    rw [List.length_eq_zero_iff.mp h1.symm, List.length_eq_zero_iff.mp h2.symm]
  | cons w ws ih =>
    cases idx with
    | nil => simp [WordsAt] at h
    | cons i idx =>
      cases idx' with
      | nil => simp [WordsAt] at h'
      | cons j idx' =>
        rw [wordsAt_cons] at h h'
        obtain ⟨hl, hg⟩ := List.getElem?_eq_some_iff.mp h.1
        obtain ⟨hl', hg'⟩ := List.getElem?_eq_some_iff.mp h'.1
        have : i = j := (List.Nodup.getElem_inj_iff (wordlist_nodup l)).mp (hg.trans hg'.symm)
        rw [this, ih h.2 h'.2]

theorem getWords_spec (l : Lang) (bs : List Bits11) (h : ∀ b ∈ bs, b.toNat < 2048) :
    ∃ ws, getWords l.wordlist bs = .ok ws ∧ WordsAt l.wordlist ws (bs.map BitVec.toNat) := by
  induction bs with
  | nil => exact ⟨[], rfl, rfl⟩
  | cons b bs ih =>
    obtain ⟨w, _, hw⟩ := getWord_of_lt l b (h b (by simp))
    obtain ⟨ws, h1, h2⟩ := ih (fun c hc => h c (by simp [hc]))
    refine ⟨w :: ws, by simp [getWords, hw, h1], ?_⟩
    exact wordsAt_cons.mpr ⟨(getWord_eq_ok_iff l b w).mp hw, h2⟩

/-- Encoding entropy of an allowed length. -/
theorem fromEntropyUnchecked_spec (H : Hashes) (e : Bytes) (l : Lang) (he : e.length ∈ entropyLengths) :
    ∃ ws idx, Mnemonic.fromEntropyUnchecked H e l = .ok ⟨join [' '] ws, l, e⟩ ∧
      WordsAt l.wordlist ws idx ∧ Encodes (fun b => (H.sha256 b).1) idx e ∧ idx.length = 3 * (e.length / 4) ∧
      ∀ i (hi : i < idx.length), idx[i] = natOfBits (group 11 i (bitsOfBytes e ++ (bitsOfBytes (H.sha256 e).1).take (e.length / 4))) := by
  obtain ⟨ws, h1, h2⟩ := getWords_spec l (BitIter.new (e ++ [H.sha256FirstByte e])).toList (toList_lt _)
  refine ⟨ws, _, by simp [Mnemonic.fromEntropyUnchecked, h1], h2, ?_⟩
  have hlt := wordsAt_lt h2
  rw [toList_map_toNat] at hlt ⊢
  have hn : 8 * (e ++ [H.sha256FirstByte e]).length / 11 = 3 * (e.length / 4) := by
    simp [entropyLengths] at he
    simp
    rcases he with h | h | h | h | h <;> simp [h]
  rw [hn] at hlt ⊢
  have hlen : e.length = 4 * (e.length / 4) := by
    simp [entropyLengths] at he
    rcases he with h | h | h | h | h <;> simp [h]
  have hcs : e.length / 4 ≤ 8 := by
    simp [entropyLengths] at he
    rcases he with h | h | h | h | h <;> simp [h]
  have htake : (bitsOfBytes (e ++ [H.sha256FirstByte e])).take (11 * (3 * (e.length / 4))) =
      bitsOfBytes e ++ (bitsOfBytes (H.sha256 e).1).take (e.length / 4) := by
    rw [bitsOfBytes_append, List.take_append, sha256_bits_head H e _ hcs]
    congr 1
    · rw [List.take_of_length_le]; simp; omega
    · rw [bitsOfBytes_cons, bitsOfBytes_nil, List.append_nil, bitsOfBytes_length]
      congr 1; omega
  refine ⟨⟨?_, hlt, ?_⟩, by simp, ?_⟩
  · simp [sizes, entropyLengths] at he ⊢
    rcases he with h | h | h | h | h <;> simp [h]
  · rw [flatMap_map_bits _ _ (by simp; omega), htake]
    simp
  · intro i hi
    simp at hi
    simp only [List.getElem_map, List.getElem_range]
    rw [← htake]
    congr 1
    simp only [group]
    rw [List.drop_take, List.take_take]
    congr 1
    omega

theorem pushWords_ok (l : Lang) (ws : List Str) (idx : List Nat) (h : WordsAt l.wordlist ws idx) (w : BitWriter)
    (hw : w.Inv) :
    ∃ w', pushWords l.wordmap ws w = .ok w' ∧ w'.Inv ∧ w'.bits = w.bits ++ idx.flatMap (bitsOfNat 11) := by
  induction ws generalizing idx w with
  | nil =>
    have h1 := wordsAt_length h
    simp at h1
    rw [List.length_eq_zero_iff.mp h1.symm]
    exact ⟨w, rfl, hw, by simp⟩
  | cons v ws ih =>
    cases idx with
    | nil => simp [WordsAt] at h
    | cons i idx =>
      rw [wordsAt_cons] at h
      have hi : i < 2048 := by
        have := (List.getElem?_eq_some_iff.mp h.1).1
        rwa [wordlist_length] at this
      have hb : getBits l.wordmap v = .ok (BitVec.ofNat 16 i) := by
        rw [getBits_eq_ok_iff, BitVec.toNat_ofNat, Nat.mod_eq_of_lt (by omega)]; exact h.1
      obtain ⟨hp1, hp2⟩ := BitWriter.push_spec w hw (BitVec.ofNat 16 i)
      obtain ⟨w', h1, h2, h3⟩ := ih idx h.2 _ hp2
      refine ⟨w', by simp [pushWords, hb, h1], h2, ?_⟩
      rw [h3, hp1, BitVec.toNat_ofNat, Nat.mod_eq_of_lt (by omega)]
      simp

theorem pushWords_err (l : Lang) (ws : List Str) (h : ∃ w ∈ ws, w ∉ l.wordlist) (w : BitWriter) :
    pushWords l.wordmap ws w = .err .invalidWord := by
  induction ws generalizing w with
  | nil => simp at h
  | cons v ws ih =>
    by_cases hv : v ∈ l.wordlist
    · have : ∃ b, getBits l.wordmap v = .ok b := by
        have := (getBits_isOk_iff l v).mpr hv
        cases hg : getBits l.wordmap v with
        | ok b => exact ⟨b, rfl⟩
        | err e => simp [hg, Res.isOk] at this
        | panic => simp [hg, Res.isOk] at this
      obtain ⟨b, hb⟩ := this
      simp only [pushWords, hb, Res.ok_bind]
      apply ih
      simpa [hv] using h
    · simp [pushWords, (getBits_eq_err_iff l v .invalidWord).mpr ⟨rfl, hv⟩]

/-- Decoding, case 1: a piece is not a list word. -/
theorem phraseToEntropy_badWord (H : Hashes) (p : Str) (l : Lang)
    (h : ∃ w ∈ splitChar ' ' p, w ∉ l.wordlist) :
    Mnemonic.phraseToEntropy H p l = .err .invalidWord := by
  simp [Mnemonic.phraseToEntropy, pushWords_err l _ h]

/-- Decoding, case 2: wrong number of words. -/
theorem phraseToEntropy_badLength (H : Hashes) (p : Str) (l : Lang)
    (h : ∀ w ∈ splitChar ' ' p, w ∈ l.wordlist) (hn : (splitChar ' ' p).length ∉ sizes) :
    Mnemonic.phraseToEntropy H p l = .err (.invalidWordLength (splitChar ' ' p).length) := by
  obtain ⟨idx, hi⟩ := wordsAt_exists l _ h
  obtain ⟨w', h1, h2, h3⟩ := pushWords_ok l _ _ hi _ BitWriter.inv_withCapacity
  have hlen : w'.len / 11 = (splitChar ' ' p).length := by
    rw [BitWriter.len_eq, h3, BitWriter.bits_withCapacity, List.nil_append, flatMap_bits_length, wordsAt_length hi]
    omega
  simp [Mnemonic.phraseToEntropy, h1, hlen, forWordCount_err hn]

/-- Decoding, case 3: list words in an allowed number; the checksum decides. -/
theorem phraseToEntropy_words (H : Hashes) (p : Str) (l : Lang) (idx : List Nat)
    (hi : WordsAt l.wordlist (splitChar ' ' p) idx) (hn : idx.length ∈ sizes) :
    ∃ e : Bytes, e.length = 4 * (idx.length / 3) ∧
      bitsOfBytes e = (idx.flatMap (bitsOfNat 11)).take (32 * (idx.length / 3)) ∧
      Mnemonic.phraseToEntropy H p l =
        if (idx.flatMap (bitsOfNat 11)).drop (32 * (idx.length / 3)) =
            (bitsOfBytes (H.sha256 e).1).take (idx.length / 3)
        then .ok e else .err .invalidChecksum := by
  obtain ⟨w, h1, h2, h3⟩ := pushWords_ok l _ _ hi _ BitWriter.inv_withCapacity
  rw [BitWriter.bits_withCapacity, List.nil_append] at h3
  have hbl : w.bits.length = 11 * idx.length := by rw [h3, flatMap_bits_length]
  obtain ⟨t, t1, t2, t3, t4⟩ := forWordCount_ok hn
  have hlen : w.len = 11 * idx.length := by rw [BitWriter.len_eq, hbl]
  have hlen' : w.len / 11 = idx.length := by omega
  have hsz : idx.length = 3 * (idx.length / 3) ∧ 4 ≤ idx.length / 3 ∧ idx.length / 3 ≤ 8 := by
    simp [sizes] at hn; omega
  generalize hk : idx.length / 3 = k at *
  have hinto := BitWriter.intoBytes_spec w h2
  have hblen : 8 * w.intoBytes.length = 33 * k + (8 - (33 * k) % 8) % 8 := by
    have := congrArg List.length hinto
    rw [bitsOfBytes_length, List.length_append, List.length_replicate, hbl] at this
    rw [this]; omega
  have hidx : 4 * k < w.intoBytes.length := by omega
  refine ⟨w.intoBytes.take (4 * k), by simp; omega, ?_, ?_⟩
  · rw [bitsOfBytes_take, hinto, ← h3, List.take_append_of_le_length (by omega)]
    congr 1
    omega
  · have hindex : index w.intoBytes (4 * k) = .ok (w.intoBytes[4 * k]) := by
      simp [index, List.getElem?_eq_getElem hidx]
    obtain ⟨v1, c1, d1⟩ := checksum'_spec (w.intoBytes[4 * k]) k (by omega) (by omega)
    obtain ⟨v2, c2, d2⟩ := checksum'_spec (H.sha256FirstByte (w.intoBytes.take (4 * k))) k (by omega) (by omega)
    have hact : (bitsOfNat 8 (w.intoBytes[4 * k]).toNat).take k = (idx.flatMap (bitsOfNat 11)).drop (32 * k) := by
      rw [bitsOfBytes_get _ _ hidx, hinto, List.take_take, ← h3, List.drop_append_of_le_length (by omega),
        List.take_append_of_le_length (by simp; omega), List.take_of_length_le]
      · congr 1; omega
      · simp; omega
    rw [hact] at d1
    rw [← sha256_bits_head H _ k (by omega)] at d2
    have hiff : v1 = v2 ↔ (idx.flatMap (bitsOfNat 11)).drop (32 * k) =
        (bitsOfBytes (H.sha256 (w.intoBytes.take (4 * k))).1).take k := by
      rw [← UInt8.toNat_inj, d1, d2]
      constructor
      · intro h
        refine natOfBits_inj ?_ h
        have := (H.sha256 (w.intoBytes.take (4 * k))).2
        rw [List.length_drop, flatMap_bits_length, List.length_take, bitsOfBytes_length, this]
        omega
      · intro h; rw [h]
    simp only [Mnemonic.phraseToEntropy, h1, Res.ok_bind, hlen', t1, t3, t4, hindex, c1, c2]
    rw [if_neg (by omega)]
    by_cases hv : v1 = v2
    · rw [if_neg (by simp [hv]), if_pos (hiff.mp hv)]
    · rw [if_pos hv, if_neg (fun h => hv (hiff.mpr h))]

theorem phraseToEntropy_ok_iff (H : Hashes) (p : Str) (l : Lang) (e : Bytes) :
    Mnemonic.phraseToEntropy H p l = .ok e ↔
      ∃ idx, WordsAt l.wordlist (splitChar ' ' p) idx ∧ Encodes (fun b => (H.sha256 b).1) idx e := by
  constructor
  · intro h
    by_cases hw : ∀ w ∈ splitChar ' ' p, w ∈ l.wordlist
    · obtain ⟨idx, hi⟩ := wordsAt_exists l _ hw
      by_cases hn : idx.length ∈ sizes
      · obtain ⟨e', h1, h2, h3⟩ := phraseToEntropy_words H p l idx hi hn
        rw [h3] at h
        split at h
        · rename_i hc
          simp at h; subst h
          refine ⟨idx, hi, hn, wordsAt_lt hi, ?_⟩
          rw [h2, ← hc, List.take_append_drop]
        · simp at h
      · rw [← wordsAt_length hi] at hn
        rw [phraseToEntropy_badLength H p l hw hn] at h
        simp at h
    · have : ∃ w ∈ splitChar ' ' p, w ∉ l.wordlist := by push Not at hw; exact hw
      rw [phraseToEntropy_badWord H p l this] at h
      simp at h
  · rintro ⟨idx, hi, he⟩
    have hl := encodes_length (fun b => (H.sha256 b).2) he
    obtain ⟨hn, hlt, hb⟩ := he
    obtain ⟨e', h1, h2, h3⟩ := phraseToEntropy_words H p l idx hi hn
    have hee : e' = e := by
      apply bitsOfBytes_inj
      rw [h2, hb, List.take_append_of_le_length (by rw [bitsOfBytes_length, hl]; omega), List.take_of_length_le]
      rw [bitsOfBytes_length, hl]; omega
    subst hee
    rw [h3, if_pos]
    rw [hb, List.drop_append_of_le_length (by rw [bitsOfBytes_length, hl]; omega), List.drop_of_length_le]
    · rfl
    · rw [bitsOfBytes_length, hl]; omega

theorem wordsAt_split (l : Lang) (ws : List Str) (idx : List Nat) (h : WordsAt l.wordlist ws idx) (hne : ws ≠ []) :
    splitChar ' ' (join [' '] ws) = ws :=
  splitChar_join ws hne fun w hw => noWs_no_space (wordlist_clean l w (wordsAt_mem h w hw)).2

/-- Pieces of the stored phrase are list words only if they are the normalised pieces of the input. -/
theorem normalise_pieces (p : Str) (l : Lang)
    (h : ∀ w ∈ splitChar ' ' (join [' '] ((splitWhitespace p).map nfkd)), w ∈ l.wordlist) :
    splitChar ' ' (join [' '] ((splitWhitespace p).map nfkd)) = (splitWhitespace p).map nfkd := by
  have hne : (splitWhitespace p).map nfkd ≠ [] := by
    intro e
    rw [e] at h
    have := h [] (by simp [splitChar])
    exact (wordlist_clean l _ this).1 rfl
  apply splitChar_join _ hne
  intro v hv hsp
  obtain ⟨w, hw, rfl⟩ := List.mem_map.mp hv
  obtain ⟨a, x, b, e, hx⟩ := nfkd_space_strange (mem_splitWhitespace hw).2 hsp
  obtain ⟨u, t, e'⟩ := join_parts _ hv
  have hx' : x ≠ ' ' := by
    rintro rfl
    rcases hx with hx | hx
    · exact hx inert_space.2
    · simp at hx
  obtain ⟨r, hr⟩ := piece_after_space (u ++ a) (b := b ++ t) hx'
  have hmem : (x :: r) ∈ l.wordlist := by
    apply h
    rw [e', e]
    apply List.mem_of_mem_tail
    simpa using hr
  have := wordlist_ok l hmem
  simp [wordOk, strange_not_letter hx] at this

theorem fromPhrase_ok_iff (H : Hashes) (p : Str) (l : Lang) (m : Mnemonic) :
    Mnemonic.fromPhrase H p l = .ok m ↔
      ∃ idx, WordsAt l.wordlist ((splitWhitespace p).map nfkd) idx ∧
        Encodes (fun b => (H.sha256 b).1) idx m.entropy ∧
        m.phrase = join [' '] ((splitWhitespace p).map nfkd) ∧ m.lang = l := by
  simp only [Mnemonic.fromPhrase, Res.bind_eq_ok, phraseToEntropy_ok_iff]
  constructor
  · rintro ⟨e, ⟨idx, hi, he⟩, hm⟩
    simp at hm; subst hm
    have := normalise_pieces p l (wordsAt_mem hi)
    exact ⟨idx, by rw [← this]; exact hi, he, rfl, rfl⟩
  · rintro ⟨idx, hi, he, hp, hl⟩
    refine ⟨m.entropy, ⟨idx, ?_, he⟩, ?_⟩
    · rw [wordsAt_split l _ idx hi]
      · exact hi
      · apply ne_nil_of_sizes
        rw [wordsAt_length hi]; exact he.1
    · cases m; simp_all

/-- Words of the list survive `split_whitespace` and normalisation. -/
theorem wordsAt_normal (l : Lang) {ws : List Str} {idx : List Nat} (h : WordsAt l.wordlist ws idx) :
    (splitWhitespace (join [' '] ws)).map nfkd = ws := by
  rw [splitWhitespace_join ws fun w hw => wordlist_clean l w (wordsAt_mem h w hw)]
  conv_rhs => rw [← List.map_id ws]
  exact List.map_congr_left fun w hw => nfkd_word l (wordsAt_mem h w hw)

theorem fromEntropy_ok_iff (H : Hashes) (e : Bytes) (l : Lang) (he : e.length ∈ entropyLengths) (m : Mnemonic) :
    Mnemonic.fromEntropy H e l = .ok m ↔ Mnemonic.fromEntropyUnchecked H e l = .ok m := by
  have : ∃ t, MnemonicType.forKeySize (usizeMul e.length 8) = .ok t := by
    simp [entropyLengths] at he
    rcases he with h | h | h | h | h <;> rw [h]
    · exact ⟨.words12, rfl⟩
    · exact ⟨.words15, rfl⟩
    · exact ⟨.words18, rfl⟩
    · exact ⟨.words21, rfl⟩
    · exact ⟨.words24, rfl⟩
  obtain ⟨t, ht⟩ := this
  simp [Mnemonic.fromEntropy, ht]

theorem fromEntropy_len (H : Hashes) (e : Bytes) (l : Lang) (m : Mnemonic) (hsz : e.length < 2 ^ 61)
    (h : Mnemonic.fromEntropy H e l = .ok m) : e.length ∈ entropyLengths := by
  unfold Mnemonic.fromEntropy at h
  rw [Res.bind_eq_ok] at h
  obtain ⟨t, ht, _⟩ := h
  have hm : usizeMul e.length 8 = 8 * e.length := by
    unfold usizeMul
    rw [Nat.mod_eq_of_lt (by omega), Nat.mul_comm]
  rw [hm] at ht
  unfold MnemonicType.forKeySize at ht
  simp [entropyLengths]
  split at ht <;> first | omega | simp at ht

/-- The result of decoding a phrase as pieces separated by single spaces. -/
theorem phraseToEntropy_cases (H : Hashes) (p : Str) (l : Lang) :
    (Mnemonic.phraseToEntropy H p l = .err .invalidWord ∧ ∃ w ∈ splitChar ' ' p, w ∉ Spec.All.words l) ∨
    (Mnemonic.phraseToEntropy H p l = .err (.invalidWordLength (splitChar ' ' p).length) ∧
      (∀ w ∈ splitChar ' ' p, w ∈ Spec.All.words l) ∧ (splitChar ' ' p).length ∉ sizes) ∨
    (∃ idx, WordsAt (Spec.All.words l) (splitChar ' ' p) idx ∧ idx.length ∈ sizes ∧
      ((∃ e, Encodes (sha H) idx e ∧ Mnemonic.phraseToEntropy H p l = .ok e) ∨
       ((¬ ∃ e, Encodes (sha H) idx e) ∧ Mnemonic.phraseToEntropy H p l = .err .invalidChecksum))) := by
  rw [← wordlist_eq]
  by_cases hw : ∀ w ∈ splitChar ' ' p, w ∈ l.wordlist
  · obtain ⟨idx, hi⟩ := wordsAt_exists l _ hw
    have hl := wordsAt_length hi
    by_cases hn : idx.length ∈ sizes
    · right; right
      refine ⟨idx, hi, hn, ?_⟩
      obtain ⟨e, h1, h2, h3⟩ := phraseToEntropy_words H p l idx hi hn
      by_cases hx : ∃ e, Encodes (sha H) idx e
      · left
        obtain ⟨e', he'⟩ := hx
        exact ⟨e', he', (phraseToEntropy_ok_iff H p l e').mpr ⟨idx, hi, he'⟩⟩
      · right
        refine ⟨hx, ?_⟩
        rw [h3, if_neg]
        intro hc
        exact hx ⟨e, hn, wordsAt_lt hi, by rw [h2]; exact (by rw [sha, ← hc, List.take_append_drop])⟩
    · right; left
      rw [← hl] at hn
      exact ⟨phraseToEntropy_badLength H p l hw hn, hw, hn⟩
  · left
    push Not at hw
    exact ⟨phraseToEntropy_badWord H p l hw, hw⟩

theorem phraseToEntropy_class (H : Hashes) (p : Str) (l : Lang) :
    Mnemonic.phraseToEntropy H p l ≠ .panic ∧
    (∀ k, Mnemonic.phraseToEntropy H p l = .err k ↔ Spec.All.Outcome H l (splitChar ' ' p) (some k)) ∧
    ((∃ e, Mnemonic.phraseToEntropy H p l = .ok e) ↔ Spec.All.Outcome H l (splitChar ' ' p) none) := by
  rcases phraseToEntropy_cases H p l with ⟨h, w, hw1, hw2⟩ | ⟨h, hw, hn⟩ | ⟨idx, hi, hn, hx⟩
  · have nw : ∀ idx, ¬ WordsAt (Spec.All.words l) (splitChar ' ' p) idx := fun idx hi => hw2 (wordsAt_mem hi w hw1)
    rw [h]
    refine ⟨by simp, ?_, by simp [Spec.All.Outcome, nw]⟩
    intro k
    cases k <;> simp [Spec.All.Outcome, nw]
    · exact ⟨w, hw1, hw2⟩
    · intro hall; exact absurd (hall w hw1) hw2
  · have nl : ∀ idx, WordsAt (Spec.All.words l) (splitChar ' ' p) idx → idx.length ∉ sizes := by
      intro idx hi; rw [← wordsAt_length hi]; exact hn
    rw [h]
    refine ⟨by simp, ?_, ?_⟩
    · intro k
      cases k with
      | invalidWord => simp [Spec.All.Outcome]; exact hw
      | invalidWordLength n =>
        simp [Spec.All.Outcome]
        constructor
        · rintro rfl; exact ⟨hw, rfl, hn⟩
        · rintro ⟨_, rfl, _⟩; rfl
      | invalidChecksum =>
        simp [Spec.All.Outcome]
        intro idx hi hs
        exact absurd hs (nl idx hi)
      | invalidKeysize n => simp [Spec.All.Outcome]
      | invalidEntropyLength n t => simp [Spec.All.Outcome]
    · simp [Spec.All.Outcome]
      intro idx hi hs
      exact absurd hs (nl idx hi)
  · have hmem := wordsAt_mem hi
    have hlen := wordsAt_length hi
    have huniq : ∀ idx', WordsAt (Spec.All.words l) (splitChar ' ' p) idx' → idx' = idx := by
      intro idx' hi'
      rw [← wordlist_eq] at hi hi'
      exact wordsAt_idx_unique hi' hi
    rcases hx with ⟨e, he, h⟩ | ⟨hne, h⟩
    · rw [h]
      refine ⟨by simp, ?_, ?_⟩
      · intro k
        cases k with
        | invalidWord => simp [Spec.All.Outcome]; exact hmem
        | invalidWordLength n =>
          simp [Spec.All.Outcome]
          intro _ hn'
          rw [hn', hlen]; exact hn
        | invalidChecksum =>
          simp only [Spec.All.Outcome, reduceCtorEq, false_iff]
          rintro ⟨idx', hi', _, hno⟩
          rw [huniq idx' hi'] at hno
          exact hno ⟨e, he⟩
        | invalidKeysize n => simp [Spec.All.Outcome]
        | invalidEntropyLength n t => simp [Spec.All.Outcome]
      · simp only [Spec.All.Outcome]
        exact ⟨fun _ => ⟨idx, hi, hn, e, he⟩, fun _ => ⟨e, rfl⟩⟩
    · rw [h]
      refine ⟨by simp, ?_, ?_⟩
      · intro k
        cases k with
        | invalidWord => simp [Spec.All.Outcome]; exact hmem
        | invalidWordLength n =>
          simp [Spec.All.Outcome]
          intro _ hn'
          rw [hn', hlen]; exact hn
        | invalidChecksum =>
          simp only [Spec.All.Outcome, true_iff]
          exact ⟨idx, hi, hn, hne⟩
        | invalidKeysize n => simp [Spec.All.Outcome]
        | invalidEntropyLength n t => simp [Spec.All.Outcome]
      · simp only [Spec.All.Outcome, reduceCtorEq, exists_false, false_iff]
        rintro ⟨idx', hi', _, hx⟩
        rw [huniq idx' hi'] at hx
        exact hne hx

/-- An API user's mnemonic always holds list words spelling its entropy. -/
theorem constructible_shape (H : Hashes) (m : Mnemonic) (h : Spec.All.Constructible H m) :
    ∃ ws idx, m.phrase = join [' '] ws ∧ WordsAt m.lang.wordlist ws idx ∧ Encodes (sha H) idx m.entropy := by
  cases h with
  | new rng t l _ h =>
    have he : (rng (t.entropyBits / 8)).1.length ∈ entropyLengths := by
      rw [(rng _).2]; cases t <;> decide
    obtain ⟨ws, idx, h', hw, henc, _⟩ := fromEntropyUnchecked_spec H _ l he
    unfold Mnemonic.new at h
    rw [h'] at h; simp at h; subst h
    exact ⟨ws, idx, rfl, hw, henc⟩
  | fromEntropy e l _ hsz h =>
    have he := fromEntropy_len H e l m hsz h
    obtain ⟨ws, idx, h', hw, henc, _⟩ := fromEntropyUnchecked_spec H e l he
    rw [(fromEntropy_ok_iff H e l he _), h'] at h
    simp at h; subst h
    exact ⟨ws, idx, rfl, hw, henc⟩
  | fromPhrase p l _ h =>
    obtain ⟨idx, hw, henc, hp, hl⟩ := (fromPhrase_ok_iff H p l m).mp h
    exact ⟨_, idx, hp, by rw [hl]; exact hw, henc⟩

end Kms.Bip39.All
