import Verif.Model.Mnemonic
import Verif.Spec.Bip39
import Verif.Proofs.Bits
import Verif.Proofs.Nfkd
import Mathlib.Data.List.Nodup
/-
Phrase encoding and decoding against the bit-string specification.
-/
namespace Kms.Bip39
open Spec Language

/-! ### chunking -/

theorem flatMap_group (n : Nat) (L : List Bool) :
    (List.range n).flatMap (fun i => group 11 i L) = L.take (11 * n) := by
  induction n with
  | zero => simp
  | succ n ih =>
    rw [List.range_succ, List.flatMap_append, ih]
    simp [group]
    rw [Nat.mul_succ, List.take_add]

theorem flatMap_bits_inj (a b : List Nat) (ha : ∀ i ∈ a, i < 2048) (hb : ∀ i ∈ b, i < 2048)
    (h : a.flatMap (bitsOfNat 11) = b.flatMap (bitsOfNat 11)) : a = b := by
  induction a generalizing b with
  | nil =>
    cases b with
    | nil => rfl
    | cons y ys =>
      have := congrArg List.length h
      simp at this; omega
  | cons x xs ih =>
    cases b with
    | nil =>
      have := congrArg List.length h
      simp at this
    | cons y ys =>
      simp only [List.flatMap_cons] at h
      obtain ⟨h1, h2⟩ := List.append_inj h (by simp)
      have hx := ha x (by simp)
      have hy := hb y (by simp)
      have e : x = y := by
        have := congrArg natOfBits h1
        rw [natOfBits_bitsOfNat, natOfBits_bitsOfNat, Nat.mod_eq_of_lt (by omega), Nat.mod_eq_of_lt (by omega)] at this
        exact this
      rw [e, ih ys (fun i hi => ha i (by simp [hi])) (fun i hi => hb i (by simp [hi])) h2]

theorem flatMap_bits_length (a : List Nat) : (a.flatMap (bitsOfNat 11)).length = 11 * a.length := by
  induction a with
  | nil => rfl
  | cons x xs ih => simp [ih]; omega

/-! ### words and numbers -/

theorem wordsAt_length {wl ws : List Str} {idx : List Nat} (h : WordsAt wl ws idx) : ws.length = idx.length := by
  have := congrArg List.length h
  simpa using this

theorem wordsAt_nil (wl : List Str) : WordsAt wl [] [] := rfl

theorem wordsAt_cons {wl ws : List Str} {w : Str} {i : Nat} {idx : List Nat} :
    WordsAt wl (w :: ws) (i :: idx) ↔ wl[i]? = some w ∧ WordsAt wl ws idx := by
  simp [WordsAt, eq_comm]

theorem wordsAt_mem {wl ws : List Str} {idx : List Nat} (h : WordsAt wl ws idx) : ∀ w ∈ ws, w ∈ wl := by
  induction ws generalizing idx with
  | nil => simp
  | cons w ws ih =>
    cases idx with
    | nil => simp [WordsAt] at h
    | cons i idx =>
      rw [wordsAt_cons] at h
      intro v hv
      simp at hv
      rcases hv with rfl | hv
      · exact List.mem_of_getElem? h.1
      · exact ih h.2 v hv

theorem wordsAt_lt {l : Language} {ws : List Str} {idx : List Nat} (h : WordsAt l.wordlist ws idx) :
    ∀ i ∈ idx, i < 2048 := by
  induction ws generalizing idx with
  | nil =>
    cases idx with
    | nil => simp
    | cons i idx => simp [WordsAt] at h
  | cons w ws ih =>
    cases idx with
    | nil => simp
    | cons i idx =>
      rw [wordsAt_cons] at h
      intro j hj
      simp at hj
      rcases hj with rfl | hj
      · have := (List.getElem?_eq_some_iff.mp h.1).1
        rwa [wordlist_length] at this
      · exact ih h.2 j hj

theorem wordsAt_exists (l : Language) (ws : List Str) (h : ∀ w ∈ ws, w ∈ l.wordlist) :
    ∃ idx, WordsAt l.wordlist ws idx := by
  induction ws with
  | nil => exact ⟨[], rfl⟩
  | cons w ws ih =>
    obtain ⟨idx, hi⟩ := ih (fun v hv => h v (by simp [hv]))
    obtain ⟨i, hl, hg⟩ := List.getElem_of_mem (h w (by simp))
    exact ⟨i :: idx, wordsAt_cons.mpr ⟨by rw [List.getElem?_eq_getElem hl, hg], hi⟩⟩

theorem wordsAt_words_unique {wl ws ws' : List Str} {idx : List Nat} (h : WordsAt wl ws idx) (h' : WordsAt wl ws' idx) :
    ws = ws' := by
  have : ws.map some = ws'.map some := by rw [h, h']
  exact List.map_injective_iff.mpr (Option.some_injective _) this

theorem wordsAt_idx_unique {l : Language} {ws : List Str} {idx idx' : List Nat}
    (h : WordsAt l.wordlist ws idx) (h' : WordsAt l.wordlist ws idx') : idx = idx' := by
  induction ws generalizing idx idx' with
  | nil =>
    have h1 := wordsAt_length h
    have h2 := wordsAt_length h'
    simp at h1 h2
    rw [List.length_eq_zero_iff.mp h1.symm, List.length_eq_zero_iff.mp h2.symm]
  | cons w ws ih =>
    cases idx with
    | nil => simp [WordsAt] at h
    | cons i idx =>
      cases idx' with
      | nil => simp [WordsAt] at h'
      | cons j idx' =>
        rw [wordsAt_cons] at h h'
        obtain ⟨hl, hg⟩ := List.getElem?_eq_some_iff.mp h.1
        obtain ⟨hl', hg'⟩ := List.getElem?_eq_some_iff.mp h'.1
        have : i = j := (List.Nodup.getElem_inj_iff (wordlist_nodup l)).mp (hg.trans hg'.symm)
        rw [this, ih h.2 h'.2]

/-! ### encoding -/

theorem getWords_spec (l : Language) (bs : List Bits11) (h : ∀ b ∈ bs, b.toNat < 2048) :
    ∃ ws, getWords l.wordlist bs = .ok ws ∧ WordsAt l.wordlist ws (bs.map BitVec.toNat) := by
  induction bs with
  | nil => exact ⟨[], rfl, rfl⟩
  | cons b bs ih =>
    obtain ⟨w, _, hw⟩ := getWord_of_lt l b (h b (by simp))
    obtain ⟨ws, h1, h2⟩ := ih (fun c hc => h c (by simp [hc]))
    refine ⟨w :: ws, by simp [getWords, hw, h1], ?_⟩
    exact wordsAt_cons.mpr ⟨(getWord_eq_ok_iff l b w).mp hw, h2⟩

theorem group_length (i : Nat) (L : List Bool) (h : 11 * (i + 1) ≤ L.length) : (group 11 i L).length = 11 := by
  simp [group]; omega

/-- The numbers read by the bit iterator, for any source. -/
theorem toList_map_toNat (src : Bytes) :
    (BitIter.new src).toList.map BitVec.toNat =
      (List.range (8 * src.length / 11)).map (fun i => natOfBits (group 11 i (bitsOfBytes src))) := by
  obtain ⟨h1, h2⟩ := BitIter.toList_spec src
  apply List.ext_getElem
  · simp [h1]
  · intro i hi1 hi2
    simp at hi1
    simp [h2 i hi1]

theorem toList_lt (src : Bytes) : ∀ b ∈ (BitIter.new src).toList, b.toNat < 2048 := by
  intro b hb
  have : b.toNat ∈ (BitIter.new src).toList.map BitVec.toNat := List.mem_map.mpr ⟨b, hb, rfl⟩
  rw [toList_map_toNat] at this
  obtain ⟨i, _, hi⟩ := List.mem_map.mp this
  rw [← hi]
  have h := natOfBits_lt (group 11 i (bitsOfBytes src))
  have hl : (group 11 i (bitsOfBytes src)).length ≤ 11 := by simp [group]; omega
  calc _ < _ := h
    _ ≤ 2 ^ 11 := Nat.pow_le_pow_right (by decide) hl

theorem flatMap_map_bits (n : Nat) (L : List Bool) (h : 11 * n ≤ L.length) :
    ((List.range n).map (fun i => natOfBits (group 11 i L))).flatMap (bitsOfNat 11) = L.take (11 * n) := by
  rw [← flatMap_group, List.flatMap_map, List.flatMap_def, List.flatMap_def]
  congr 1
  apply List.map_congr_left
  intro i hi
  simp at hi
  have hl := group_length i L (by omega)
  have := bitsOfNat_natOfBits (group 11 i L)
  rwa [hl] at this

theorem sha256_bits_head (H : Hashes) (e : Bytes) (k : Nat) (hk : k ≤ 8) :
    (bitsOfBytes (H.sha256 e).1).take k = (bitsOfNat 8 (H.sha256FirstByte e).toNat).take k := by
  unfold Hashes.sha256FirstByte
  have aux : ∀ (A : ByteArr 32) (h0 : 0 < A.1.length),
      (bitsOfBytes A.1).take k = (bitsOfNat 8 (A.1[0]'h0).toNat).take k := by
    intro ⟨L, hl⟩ h0
    cases L with
    | nil => simp at hl
    | cons b r =>
      simp only [List.getElem_cons_zero, bitsOfBytes_cons]
      rw [List.take_append_of_le_length (by simp; omega)]
  exact aux _ _

/-- Encoding entropy of an allowed length. -/
theorem fromEntropyUnchecked_spec (H : Hashes) (e : Bytes) (l : Language) (he : e.length ∈ entropyLengths) :
    ∃ ws idx, Mnemonic.fromEntropyUnchecked H e l = .ok ⟨join [' '] ws, l, e⟩ ∧
      WordsAt l.wordlist ws idx ∧ Encodes (fun b => (H.sha256 b).1) idx e ∧ idx.length = 3 * (e.length / 4) ∧
      ∀ i (hi : i < idx.length), idx[i] = natOfBits (group 11 i (bitsOfBytes e ++ (bitsOfBytes (H.sha256 e).1).take (e.length / 4))) := by
  obtain ⟨ws, h1, h2⟩ := getWords_spec l (BitIter.new (e ++ [H.sha256FirstByte e])).toList (toList_lt _)
  refine ⟨ws, _, by simp [Mnemonic.fromEntropyUnchecked, h1], h2, ?_⟩
  have hlt := wordsAt_lt h2
  rw [toList_map_toNat] at hlt ⊢
  have hn : 8 * (e ++ [H.sha256FirstByte e]).length / 11 = 3 * (e.length / 4) := by
    simp [entropyLengths] at he
    simp
    rcases he with h | h | h | h | h <;> simp [h]
  rw [hn] at hlt ⊢
  have hlen : e.length = 4 * (e.length / 4) := by
    simp [entropyLengths] at he
    rcases he with h | h | h | h | h <;> simp [h]
  have hcs : e.length / 4 ≤ 8 := by
    simp [entropyLengths] at he
    rcases he with h | h | h | h | h <;> simp [h]
  have htake : (bitsOfBytes (e ++ [H.sha256FirstByte e])).take (11 * (3 * (e.length / 4))) =
      bitsOfBytes e ++ (bitsOfBytes (H.sha256 e).1).take (e.length / 4) := by
    rw [bitsOfBytes_append, List.take_append, sha256_bits_head H e _ hcs]
    congr 1
    · rw [List.take_of_length_le]; simp; omega
    · rw [bitsOfBytes_cons, bitsOfBytes_nil, List.append_nil, bitsOfBytes_length]
      congr 1; omega
  refine ⟨⟨?_, hlt, ?_⟩, by simp, ?_⟩
  · simp [sizes, entropyLengths] at he ⊢
    rcases he with h | h | h | h | h <;> simp [h]
  · rw [flatMap_map_bits _ _ (by simp; omega), htake]
    simp
  · intro i hi
    simp at hi
    simp only [List.getElem_map, List.getElem_range]
    rw [← htake]
    congr 1
    simp only [group]
    rw [List.drop_take, List.take_take]
    congr 1
    omega

/-! ### decoding -/

theorem pushWords_ok (l : Language) (ws : List Str) (idx : List Nat) (h : WordsAt l.wordlist ws idx) (w : BitWriter)
    (hw : w.Inv) :
    ∃ w', pushWords l.wordmap ws w = .ok w' ∧ w'.Inv ∧ w'.bits = w.bits ++ idx.flatMap (bitsOfNat 11) := by
  induction ws generalizing idx w with
  | nil =>
    have h1 := wordsAt_length h
    simp at h1
    rw [List.length_eq_zero_iff.mp h1.symm]
    exact ⟨w, rfl, hw, by simp⟩
  | cons v ws ih =>
    cases idx with
    | nil => simp [WordsAt] at h
    | cons i idx =>
      rw [wordsAt_cons] at h
      have hi : i < 2048 := by
        have := (List.getElem?_eq_some_iff.mp h.1).1
        rwa [wordlist_length] at this
      have hb : getBits l.wordmap v = .ok (BitVec.ofNat 16 i) := by
        rw [getBits_eq_ok_iff, BitVec.toNat_ofNat, Nat.mod_eq_of_lt (by omega)]; exact h.1
      obtain ⟨hp1, hp2⟩ := BitWriter.push_spec w hw (BitVec.ofNat 16 i)
      obtain ⟨w', h1, h2, h3⟩ := ih idx h.2 _ hp2
      refine ⟨w', by simp [pushWords, hb, h1], h2, ?_⟩
      rw [h3, hp1, BitVec.toNat_ofNat, Nat.mod_eq_of_lt (by omega)]
      simp

theorem pushWords_err (l : Language) (ws : List Str) (h : ∃ w ∈ ws, w ∉ l.wordlist) (w : BitWriter) :
    pushWords l.wordmap ws w = .err .invalidWord := by
  induction ws generalizing w with
  | nil => simp at h
  | cons v ws ih =>
    by_cases hv : v ∈ l.wordlist
    · have : ∃ b, getBits l.wordmap v = .ok b := by
        have := (getBits_isOk_iff l v).mpr hv
        cases hg : getBits l.wordmap v with
        | ok b => exact ⟨b, rfl⟩
        | err e => simp [hg, Res.isOk] at this
        | panic => simp [hg, Res.isOk] at this
      obtain ⟨b, hb⟩ := this
      simp only [pushWords, hb, Res.ok_bind]
      apply ih
      simpa [hv] using h
    · simp [pushWords, (getBits_eq_err_iff l v .invalidWord).mpr ⟨rfl, hv⟩]

theorem checksum'_spec (b : UInt8) (k : Nat) (h1 : 1 ≤ k) (h8 : k ≤ 8) :
    ∃ v : UInt8, checksum' b k = .ok v ∧ v.toNat = natOfBits ((bitsOfNat 8 b.toNat).take k) := by
  refine ⟨_, by simp [checksum', checksum, h1, h8]; rfl, ?_⟩
  have h := natOfBits_append ((bitsOfNat 8 b.toNat).take k) ((bitsOfNat 8 b.toNat).drop k)
  rw [List.take_append_drop, natOfBits_bitsOfNat] at h
  have hlt := natOfBits_lt ((bitsOfNat 8 b.toNat).drop k)
  have hl : ((bitsOfNat 8 b.toNat).drop k).length = 8 - k := by simp
  rw [hl] at h hlt
  have hb : b.toNat < 256 := b.toNat_lt
  rw [Nat.mod_eq_of_lt (by simpa using hb)] at h
  have : (UInt8.ofBitVec (b.toBitVec >>> (8 - k))).toNat = b.toNat >>> (8 - k) := by
    change (b.toBitVec >>> (8 - k)).toNat = _
    simp
  rw [this, Nat.shiftRight_eq_div_pow]
  conv_lhs => rw [h, Nat.mul_comm, Nat.mul_add_div (Nat.two_pow_pos _), Nat.div_eq_of_lt hlt]
  simp

theorem forWordCount_ok {n : Nat} (h : n ∈ sizes) :
    ∃ t, MnemonicType.forWordCount n = .ok t ∧ t.totalBits = 11 * n ∧ t.entropyBits / 8 = 4 * (n / 3) ∧
      t.checksumBits = n / 3 := by
  simp [sizes] at h
  rcases h with rfl | rfl | rfl | rfl | rfl
  · exact ⟨.words12, rfl, by decide, by decide, by decide⟩
  · exact ⟨.words15, rfl, by decide, by decide, by decide⟩
  · exact ⟨.words18, rfl, by decide, by decide, by decide⟩
  · exact ⟨.words21, rfl, by decide, by decide, by decide⟩
  · exact ⟨.words24, rfl, by decide, by decide, by decide⟩

theorem forWordCount_err {n : Nat} (h : n ∉ sizes) :
    MnemonicType.forWordCount n = .err (.invalidWordLength n) := by
  simp [sizes] at h
  unfold MnemonicType.forWordCount
  split <;> first | rfl | (exfalso; omega)

theorem bitsOfBytes_take (B : Bytes) (n : Nat) : bitsOfBytes (B.take n) = (bitsOfBytes B).take (8 * n) := by
  induction B generalizing n with
  | nil => simp
  | cons b B ih =>
    cases n with
    | zero => simp
    | succ n =>
      simp only [List.take_succ_cons, bitsOfBytes_cons, ih]
      rw [List.take_append, List.take_of_length_le (l := bitsOfNat 8 b.toNat) (by simp; omega), bitsOfNat_length]
      congr 2

theorem bitsOfBytes_get (B : Bytes) (n : Nat) (h : n < B.length) :
    bitsOfNat 8 (B[n]).toNat = ((bitsOfBytes B).drop (8 * n)).take 8 := by
  induction B generalizing n with
  | nil => simp at h
  | cons b B ih =>
    cases n with
    | zero => simp [bitsOfBytes_cons]
    | succ n =>
      simp at h
      simp only [List.getElem_cons_succ, bitsOfBytes_cons]
      rw [ih n h, List.drop_append, List.drop_of_length_le (l := bitsOfNat 8 b.toNat) (by simp; omega), List.nil_append, bitsOfNat_length]
      congr 2

/-- Decoding, case 1: a piece is not a list word. -/
theorem phraseToEntropy_badWord (H : Hashes) (p : Str) (l : Language)
    (h : ∃ w ∈ splitChar ' ' p, w ∉ l.wordlist) :
    Mnemonic.phraseToEntropy H p l = .err .invalidWord := by
  simp [Mnemonic.phraseToEntropy, pushWords_err l _ h]

/-- Decoding, case 2: wrong number of words. -/
theorem phraseToEntropy_badLength (H : Hashes) (p : Str) (l : Language)
    (h : ∀ w ∈ splitChar ' ' p, w ∈ l.wordlist) (hn : (splitChar ' ' p).length ∉ sizes) :
    Mnemonic.phraseToEntropy H p l = .err (.invalidWordLength (splitChar ' ' p).length) := by
  obtain ⟨idx, hi⟩ := wordsAt_exists l _ h
  obtain ⟨w', h1, h2, h3⟩ := pushWords_ok l _ _ hi _ BitWriter.inv_withCapacity
  have hlen : w'.len / 11 = (splitChar ' ' p).length := by
    rw [BitWriter.len_eq, h3, BitWriter.bits_withCapacity, List.nil_append, flatMap_bits_length, wordsAt_length hi]
    omega
  simp [Mnemonic.phraseToEntropy, h1, hlen, forWordCount_err hn]

/-- Decoding, case 3: list words in an allowed number; the checksum decides. -/
theorem phraseToEntropy_words (H : Hashes) (p : Str) (l : Language) (idx : List Nat)
    (hi : WordsAt l.wordlist (splitChar ' ' p) idx) (hn : idx.length ∈ sizes) :
    ∃ e : Bytes, e.length = 4 * (idx.length / 3) ∧
      bitsOfBytes e = (idx.flatMap (bitsOfNat 11)).take (32 * (idx.length / 3)) ∧
      Mnemonic.phraseToEntropy H p l =
        if (idx.flatMap (bitsOfNat 11)).drop (32 * (idx.length / 3)) =
            (bitsOfBytes (H.sha256 e).1).take (idx.length / 3)
        then .ok e else .err .invalidChecksum := by
  obtain ⟨w, h1, h2, h3⟩ := pushWords_ok l _ _ hi _ BitWriter.inv_withCapacity
  rw [BitWriter.bits_withCapacity, List.nil_append] at h3
  have hbl : w.bits.length = 11 * idx.length := by rw [h3, flatMap_bits_length]
  obtain ⟨t, t1, t2, t3, t4⟩ := forWordCount_ok hn
  have hlen : w.len = 11 * idx.length := by rw [BitWriter.len_eq, hbl]
  have hlen' : w.len / 11 = idx.length := by omega
  have hsz : idx.length = 3 * (idx.length / 3) ∧ 4 ≤ idx.length / 3 ∧ idx.length / 3 ≤ 8 := by
    simp [sizes] at hn; omega
  generalize hk : idx.length / 3 = k at *
  have hinto := BitWriter.intoBytes_spec w h2
  have hblen : 8 * w.intoBytes.length = 33 * k + (8 - (33 * k) % 8) % 8 := by
    have := congrArg List.length hinto
    rw [bitsOfBytes_length, List.length_append, List.length_replicate, hbl] at this
    rw [this]; omega
  have hidx : 4 * k < w.intoBytes.length := by omega
  refine ⟨w.intoBytes.take (4 * k), by simp; omega, ?_, ?_⟩
  · rw [bitsOfBytes_take, hinto, ← h3, List.take_append_of_le_length (by omega)]
    congr 1
    omega
  · have hindex : index w.intoBytes (4 * k) = .ok (w.intoBytes[4 * k]) := by
      simp [index, List.getElem?_eq_getElem hidx]
    obtain ⟨v1, c1, d1⟩ := checksum'_spec (w.intoBytes[4 * k]) k (by omega) (by omega)
    obtain ⟨v2, c2, d2⟩ := checksum'_spec (H.sha256FirstByte (w.intoBytes.take (4 * k))) k (by omega) (by omega)
    have hact : (bitsOfNat 8 (w.intoBytes[4 * k]).toNat).take k = (idx.flatMap (bitsOfNat 11)).drop (32 * k) := by
      rw [bitsOfBytes_get _ _ hidx, hinto, List.take_take, ← h3, List.drop_append_of_le_length (by omega),
        List.take_append_of_le_length (by simp; omega), List.take_of_length_le]
      · congr 1; omega
      · simp; omega
    rw [hact] at d1
    rw [← sha256_bits_head H _ k (by omega)] at d2
    have hiff : v1 = v2 ↔ (idx.flatMap (bitsOfNat 11)).drop (32 * k) =
        (bitsOfBytes (H.sha256 (w.intoBytes.take (4 * k))).1).take k := by
      rw [← UInt8.toNat_inj, d1, d2]
      constructor
      · intro h
        refine natOfBits_inj ?_ h
        have := (H.sha256 (w.intoBytes.take (4 * k))).2
        rw [List.length_drop, flatMap_bits_length, List.length_take, bitsOfBytes_length, this]
        omega
      · intro h; rw [h]
    simp only [Mnemonic.phraseToEntropy, h1, Res.ok_bind, hlen', t1, t3, t4, hindex, c1, c2]
    rw [if_neg (by omega)]
    by_cases hv : v1 = v2
    · rw [if_neg (by simp [hv]), if_pos (hiff.mp hv)]
    · rw [if_pos hv, if_neg (fun h => hv (hiff.mpr h))]

theorem encodes_length {sha : Bytes → Bytes} (hs : ∀ b, (sha b).length = 32) {idx : List Nat} {e : Bytes}
    (h : Encodes sha idx e) : e.length = 4 * (idx.length / 3) := by
  obtain ⟨hn, _, hb⟩ := h
  have := congrArg List.length hb
  rw [flatMap_bits_length, List.length_append, List.length_take, bitsOfBytes_length, bitsOfBytes_length, hs] at this
  simp [sizes] at hn
  omega

theorem phraseToEntropy_ok_iff (H : Hashes) (p : Str) (l : Language) (e : Bytes) :
    Mnemonic.phraseToEntropy H p l = .ok e ↔
      ∃ idx, WordsAt l.wordlist (splitChar ' ' p) idx ∧ Encodes (fun b => (H.sha256 b).1) idx e := by
  constructor
  · intro h
    by_cases hw : ∀ w ∈ splitChar ' ' p, w ∈ l.wordlist
    · obtain ⟨idx, hi⟩ := wordsAt_exists l _ hw
      by_cases hn : idx.length ∈ sizes
      · obtain ⟨e', h1, h2, h3⟩ := phraseToEntropy_words H p l idx hi hn
        rw [h3] at h
        split at h
        · rename_i hc
          simp at h; subst h
          refine ⟨idx, hi, hn, wordsAt_lt hi, ?_⟩
          rw [h2, ← hc, List.take_append_drop]
        · simp at h
      · rw [← wordsAt_length hi] at hn
        rw [phraseToEntropy_badLength H p l hw hn] at h
        simp at h
    · have : ∃ w ∈ splitChar ' ' p, w ∉ l.wordlist := by push Not at hw; exact hw
      rw [phraseToEntropy_badWord H p l this] at h
      simp at h
  · rintro ⟨idx, hi, he⟩
    have hl := encodes_length (fun b => (H.sha256 b).2) he
    obtain ⟨hn, hlt, hb⟩ := he
    obtain ⟨e', h1, h2, h3⟩ := phraseToEntropy_words H p l idx hi hn
    have hee : e' = e := by
      apply bitsOfBytes_inj
      rw [h2, hb, List.take_append_of_le_length (by rw [bitsOfBytes_length, hl]; omega), List.take_of_length_le]
      rw [bitsOfBytes_length, hl]; omega
    subst hee
    rw [h3, if_pos]
    rw [hb, List.drop_append_of_le_length (by rw [bitsOfBytes_length, hl]; omega), List.drop_of_length_le]
    · rfl
    · rw [bitsOfBytes_length, hl]; omega

/-- Pieces of the stored phrase are list words only if they are the normalised pieces of the input. -/
theorem normalise_pieces (p : Str) (l : Language)
    (h : ∀ w ∈ splitChar ' ' (Mnemonic.normalisePhrase p), w ∈ l.wordlist) :
    splitChar ' ' (Mnemonic.normalisePhrase p) = (splitWhitespace p).map nfkd := by
  unfold Mnemonic.normalisePhrase at *
  have hne : (splitWhitespace p).map nfkd ≠ [] := by
    intro e
    rw [e] at h
    have := h [] (by simp [splitChar])
    exact (wordlist_clean l _ this).1 rfl
  apply splitChar_join _ hne
  intro v hv hsp
  obtain ⟨w, hw, rfl⟩ := List.mem_map.mp hv
  obtain ⟨_, y, hy, ha⟩ := nfkd_space_alien (mem_splitWhitespace hw).2 hsp (by decide)
  have hy' : y ≠ ' ' := by rintro rfl; revert ha; decide
  obtain ⟨q, hq, hyq⟩ := mem_piece (mem_join (sep := ' ') ⟨_, hv, hy⟩) hy'
  have := word_not_alien l (h q hq) hyq
  rw [this] at ha
  simp at ha

theorem wordsAt_split (l : Language) (ws : List Str) (idx : List Nat) (h : WordsAt l.wordlist ws idx) (hne : ws ≠ []) :
    splitChar ' ' (join [' '] ws) = ws :=
  splitChar_join ws hne fun w hw => noWs_no_space (wordlist_clean l w (wordsAt_mem h w hw)).2

theorem ne_nil_of_sizes {α : Type} {ws : List α} (h : ws.length ∈ sizes) : ws ≠ [] := by
  rintro rfl
  simp [sizes] at h

theorem fromPhrase_ok_iff (H : Hashes) (p : Str) (l : Language) (m : Mnemonic) :
    Mnemonic.fromPhrase H p l = .ok m ↔
      ∃ idx, WordsAt l.wordlist ((splitWhitespace p).map nfkd) idx ∧
        Encodes (fun b => (H.sha256 b).1) idx m.entropy ∧
        m.phrase = join [' '] ((splitWhitespace p).map nfkd) ∧ m.lang = l := by
  simp only [Mnemonic.fromPhrase, Res.bind_eq_ok, phraseToEntropy_ok_iff]
  constructor
  · rintro ⟨e, ⟨idx, hi, he⟩, hm⟩
    simp at hm; subst hm
    have := normalise_pieces p l (wordsAt_mem hi)
    exact ⟨idx, by rw [← this]; exact hi, he, rfl, rfl⟩
  · rintro ⟨idx, hi, he, hp, hl⟩
    refine ⟨m.entropy, ⟨idx, ?_, he⟩, ?_⟩
    · rw [Mnemonic.normalisePhrase, wordsAt_split l _ idx hi]
      · exact hi
      · apply ne_nil_of_sizes
        rw [wordsAt_length hi]; exact he.1
    · cases m; simp_all [Mnemonic.normalisePhrase]

/-- Words of the list survive `split_whitespace` and normalisation. -/
theorem wordsAt_normal (l : Language) {ws : List Str} {idx : List Nat} (h : WordsAt l.wordlist ws idx) :
    (splitWhitespace (join [' '] ws)).map nfkd = ws := by
  rw [splitWhitespace_join ws fun w hw => wordlist_clean l w (wordsAt_mem h w hw)]
  conv_rhs => rw [← List.map_id ws]
  exact List.map_congr_left fun w hw => nfkd_word l (wordsAt_mem h w hw)

theorem fromEntropy_ok_iff (H : Hashes) (e : Bytes) (l : Language) (he : e.length ∈ entropyLengths) (m : Mnemonic) :
    Mnemonic.fromEntropy H e l = .ok m ↔ Mnemonic.fromEntropyUnchecked H e l = .ok m := by
  have : ∃ t, MnemonicType.forKeySize (usizeMul e.length 8) = .ok t := by
    simp [entropyLengths] at he
    rcases he with h | h | h | h | h <;> rw [h]
    · exact ⟨.words12, rfl⟩
    · exact ⟨.words15, rfl⟩
    · exact ⟨.words18, rfl⟩
    · exact ⟨.words21, rfl⟩
    · exact ⟨.words24, rfl⟩
  obtain ⟨t, ht⟩ := this
  simp [Mnemonic.fromEntropy, ht]

theorem spaced_eq_join (ws : List Str) : spaced ws = join [' '] ws := by
  induction ws with
  | nil => rfl
  | cons a r ih =>
    cases r with
    | nil => rfl
    | cons b r => rw [spaced, join_cons_cons, ih]; simp; simp

end Kms.Bip39
