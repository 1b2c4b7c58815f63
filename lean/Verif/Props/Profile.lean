import Verif.Proofs.Profile
import Verif.Proofs.ProfileBase58
import Verif.Props.PhraseMore
/-
C85 to C87: the way the crate is compiled.
-/
namespace Kms.Props
open Spec Bip39 Profile

/-- Targets Rust's standard library exists for and the crate compiles on: `usize` has 32 or 64 bits. -/
def Target (P : Profile) : Prop := P.usizeBits = 32 ∨ P.usizeBits = 64

theorem Target.ge {P : Profile} (h : Target P) : 32 ≤ P.usizeBits := by
  rcases h with h | h <;> omega

theorem fromEntropyUncheckedP_eq (P : Profile) (hP : Target P) (H : Hashes) (e : Bytes) (l : Language) (he : e.length < 2 ^ 19) :
    Mnemonic.fromEntropyUncheckedP P H e l = Mnemonic.fromEntropyUnchecked H e l := by
  rw [Mnemonic.fromEntropyUncheckedP, wordlistP_eq P, Res.ok_bind]
  simp only
  rw [joinBitsP_eq P hP.ge _ _ (by simp; omega), Mnemonic.fromEntropyUnchecked]
  cases getWords l.wordlist (BitIter.new (e ++ [H.sha256FirstByte e])).toList <;> rfl

theorem forKeySize_cases (n : Nat) :
    (n ∈ [128, 160, 192, 224, 256] ∧ (MnemonicType.forKeySize n).isOk = true) ∨
    (n ∉ [128, 160, 192, 224, 256] ∧ MnemonicType.forKeySize n = .err (.invalidKeysize n)) := by
  by_cases h : n ∈ [128, 160, 192, 224, 256]
  · left
    refine ⟨h, ?_⟩
    simp at h
    rcases h with rfl | rfl | rfl | rfl | rfl <;> rfl
  · right
    refine ⟨h, ?_⟩
    simp at h
    unfold MnemonicType.forKeySize
    split <;> first | rfl | (exfalso; omega)

theorem fromEntropyP_eq (P : Profile) (hP : Target P) (H : Hashes) (e : Bytes) (l : Language)
    (he : 8 * e.length < 2 ^ P.usizeBits) : Mnemonic.fromEntropyP P H e l = Mnemonic.fromEntropy H e l := by
  have h64 : e.length * 8 < 2 ^ 64 := by
    have : 2 ^ P.usizeBits ≤ 2 ^ 64 := Nat.pow_le_pow_right (by omega) (by rcases hP with h | h <;> omega)
    omega
  rw [Mnemonic.fromEntropyP, mul_ok P (by omega), Res.ok_bind, Mnemonic.fromEntropy, usizeMul, Nat.mod_eq_of_lt h64]
  rcases forKeySize_cases (e.length * 8) with ⟨hm, hk⟩ | ⟨_, hk⟩
  · cases hf : MnemonicType.forKeySize (e.length * 8) with
    | ok t =>
      rw [Res.ok_bind, Res.ok_bind]
      refine fromEntropyUncheckedP_eq P hP H e l ?_
      simp at hm; omega
    | err x => rw [hf] at hk; simp [Res.isOk] at hk
    | panic => rfl
  · rw [hk]; rfl

/-- Pieces of a phrase that are all list words take at least two characters each. -/
theorem pieces_length {l : Language} {ws : List Str} (h : ∀ w ∈ ws, w ∈ l.wordlist) :
    2 * ws.length ≤ (join [' '] ws).length + 1 := by
  induction ws with
  | nil => simp
  | cons w ws ih =>
    have hw : 1 ≤ w.length := by
      have := (wordlist_clean l w (h w (by simp))).1
      cases w with
      | nil => exact absurd rfl this
      | cons c cs => simp
    cases ws with
    | nil => simp; omega
    | cons v vs =>
      have := ih (fun x hx => h x (by simp [hx]))
      rw [join_cons_cons]
      simp at this ⊢
      omega

/-- White-space separated words take at least two characters each. -/
theorem splitWhitespace_count (s : Str) : 2 * (splitWhitespace s).length ≤ s.length + 1 := by
  have key : ∀ s : Str, ∃ w ws, splitWs s = w :: ws ∧
      2 * (ws.filter (fun w => !w.isEmpty)).length + w.length ≤ s.length ∧
      2 * ((w :: ws).filter (fun w => !w.isEmpty)).length ≤ s.length + 1 := by
    intro s
    induction s with
    | nil => exact ⟨[], [], rfl, by simp, by simp⟩
    | cons c cs ih =>
      obtain ⟨w, ws, h1, h2, h3⟩ := ih
      by_cases hc : isWhitespace c = true
      · refine ⟨[], w :: ws, by simp [splitWs, hc, h1], ?_, ?_⟩
        · simp at h3 ⊢; omega
        · rw [List.filter_cons_of_neg (by simp)]
          simp at h3 ⊢; omega
      · refine ⟨c :: w, ws, by simp [splitWs, hc, h1], ?_, ?_⟩
        · simp at h2 ⊢; omega
        · rw [List.filter_cons_of_pos (by simp)]
          simp at h2 ⊢; omega
  obtain ⟨w, ws, h1, _, h3⟩ := key s
  rw [splitWhitespace, h1]; exact h3

theorem phraseToEntropyP_eq (P : Profile) (hP : Target P) (H : Hashes) (p : Str) (l : Language)
    (hn : (∀ w ∈ splitChar ' ' p, w ∈ l.wordlist) → 11 * (splitChar ' ' p).length < 2 ^ P.usizeBits) :
    Mnemonic.phraseToEntropyP P H p l = Mnemonic.phraseToEntropy H p l := by
  by_cases hall : ∀ w ∈ splitChar ' ' p, w ∈ l.wordlist
  · -- compare with the profile of the rest of the model
    have main : ∀ Q : Profile, 32 ≤ Q.usizeBits → 11 * (splitChar ' ' p).length < 2 ^ Q.usizeBits →
        Mnemonic.phraseToEntropyP Q H p l = Mnemonic.phraseToEntropy H p l := by
      intro Q hQ hlt
      obtain ⟨idx, hi⟩ := wordsAt_exists l _ hall
      obtain ⟨w, hinv, hbits, heq⟩ := phraseToEntropyP_words Q hQ H p l idx hi
      have hlen : w.len = 11 * (splitChar ' ' p).length := by
        rw [BitWriter.len_eq, hbits, flatMap_bits_length, wordsAt_length hi]
      rw [heq, lenP_eq Q w (by omega), Res.ok_bind, hlen, Nat.mul_div_cancel_left _ (by omega)]
      by_cases hs : (splitChar ' ' p).length ∈ sizes
      · rw [if_pos hs, if_neg (by simp)]
        obtain ⟨w', g1, g2, g3⟩ := pushWords_ok l _ _ hi _ BitWriter.inv_withCapacity
        rw [BitWriter.bits_withCapacity, List.nil_append] at g3
        obtain ⟨t, t1, t2, t3, t4⟩ := forWordCount_ok hs
        have hlen' : w'.len = 11 * (splitChar ' ' p).length := by
          rw [BitWriter.len_eq, g3, flatMap_bits_length, wordsAt_length hi]
        have hk : 1 ≤ (splitChar ' ' p).length / 3 ∧ (splitChar ' ' p).length / 3 ≤ 8 ∧
            33 * ((splitChar ' ' p).length / 3) = 11 * (splitChar ' ' p).length := by
          simp [sizes] at hs; omega
        have hbl : w.bits.length = 11 * (splitChar ' ' p).length := by rw [← BitWriter.len_eq, hlen]
        have hbl' : w'.bits.length = 11 * (splitChar ' ' p).length := by rw [← BitWriter.len_eq, hlen']
        rw [verify_congr H w w' hinv g2 _ hk.1 hk.2.1 (by omega) (by omega) (by rw [hbits, g3])]
        simp only [Mnemonic.phraseToEntropy, g1, Res.ok_bind, hlen', Nat.mul_div_cancel_left _ (show 0 < 11 by omega), t1, t2,
          t3, t4, verify]
        simp
      · rw [if_neg hs, phraseToEntropy_badLength H p l hall hs]
    exact main P hP.ge (hn hall)
  · have hbad : ∃ w ∈ splitChar ' ' p, w ∉ l.wordlist := by simpa using hall
    rw [phraseToEntropyP_badWord P hP.ge H p l hbad, phraseToEntropy_badWord H p l hbad]

theorem validateP_eq (P : Profile) (hP : Target P) (H : Hashes) (p : Str) (l : Language)
    (hlen : p.length ≤ 2 ^ (P.usizeBits - 3)) : Mnemonic.validateP P H p l = Mnemonic.validate H p l := by
  rw [Mnemonic.validateP, Mnemonic.validate, phraseToEntropyP_eq P hP H p l]
  intro h
  have := pieces_length h
  rw [join_splitChar] at this
  rcases hP with h | h <;> rw [h] at hlen ⊢ <;> omega

theorem fromPhraseP_eq (P : Profile) (hP : Target P) (H : Hashes) (p : Str) (l : Language)
    (hlen : p.length ≤ 2 ^ (P.usizeBits - 3)) : Mnemonic.fromPhraseP P H p l = Mnemonic.fromPhrase H p l := by
  rw [Mnemonic.fromPhraseP, joinWordsP_eq P hP.ge, Res.ok_bind, Mnemonic.fromPhrase, Mnemonic.normalisePhrase,
    phraseToEntropyP_eq P hP]
  intro h
  rw [← Mnemonic.normalisePhrase, normalise_pieces p l h, List.length_map]
  have := splitWhitespace_count p
  rcases hP with h | h <;> rw [h] at hlen ⊢ <;> omega

/-- **C85** The results do not depend on how the crate is compiled: with overflow checks on or off, with debug assertions on or
off, and with a `usize` of 32 or 64 bits, no arithmetic operation overflows, no shift is too long and no `debug_assert!` fails.
Every profile gives the results the other theorems speak about: `from_entropy` for every slice whose length in bits fits a
`usize`, `Mnemonic::new` always, `from_phrase` and `validate` for phrases of at most 2^(usize bits − 3) characters (512 Mi on a
32-bit target), the numbers of a `MnemonicType`, the word lists and maps, and the prefix search (whatever the standard library's
`binary_search` answers). -/
theorem C85_build_profile (P : Profile) (hP : Target P) (H : Hashes) (l : Language) :
    (∀ e : Bytes, 8 * e.length < 2 ^ P.usizeBits → Mnemonic.fromEntropyP P H e l = Mnemonic.fromEntropy H e l) ∧
    (∀ rng t, Mnemonic.newP P H rng t l = Mnemonic.new H rng t l) ∧
    (∀ p : Str, p.length ≤ 2 ^ (P.usizeBits - 3) →
      Mnemonic.fromPhraseP P H p l = Mnemonic.fromPhrase H p l ∧ Mnemonic.validateP P H p l = Mnemonic.validate H p l) ∧
    (∀ t : MnemonicType, t.entropyBitsP P = .ok t.entropyBits ∧ t.checksumBitsP P = t.checksumBits ∧
      t.totalBitsP P = .ok t.totalBits ∧ t.wordCountP P = .ok t.wordCount) ∧
    l.wordlistP P = .ok l.wordlist ∧ l.wordmapP P = .ok l.wordmap ∧
    (∀ search pfx, getWordsByPrefixP P search l.wordlist pfx = Language.getWordsByPrefix search l.wordlist pfx) := by
  have hp := P.pow_ge hP.ge
  refine ⟨fun e he => fromEntropyP_eq P hP H e l he, fun rng t => ?_,
    fun p hl => ⟨fromPhraseP_eq P hP H p l hl, validateP_eq P hP H p l hl⟩,
    fun t => ⟨entropyBitsP_eq P hP.ge t, checksumBitsP_eq P hP.ge t, totalBitsP_eq P hP.ge t, wordCountP_eq P hP.ge t⟩,
    wordlistP_eq P l, wordmapP_eq P l, fun search pfx => ?_⟩
  · rw [Mnemonic.newP, entropyBitsP_eq P hP.ge, Res.ok_bind, Mnemonic.new]
    refine fromEntropyUncheckedP_eq P hP H _ l ?_
    rw [(rng (t.entropyBits / 8)).2]
    cases t <;> decide
  · have hlen := wordlist_length l
    unfold getWordsByPrefixP Language.getWordsByPrefix
    generalize Language.unwrapOrElseId (search l.wordlist pfx) = start
    simp only [Language.sliceFrom]
    by_cases hs : start ≤ l.wordlist.length
    · rw [if_pos hs, Res.ok_bind, Res.ok_bind]
      have hc : (((l.wordlist.drop start).takeWhile (fun word => pfx.isPrefixOf word)).length) ≤ 2048 := by
        refine le_trans (List.takeWhile_sublist _).length_le ?_
        rw [List.length_drop]; omega
      rw [add_ok P (by omega), Res.ok_bind]
      by_cases hle : start + ((l.wordlist.drop start).takeWhile (fun word => pfx.isPrefixOf word)).length ≤ l.wordlist.length
      · rw [if_pos ⟨by omega, hle⟩, if_pos hle]
        congr 2; omega
      · rw [if_neg (fun h => hle h.2), if_neg hle]
    · rw [if_neg hs]; rfl

/-- A development build for a 32-bit target. -/
def dev32 : Profile := ⟨true, true, 32⟩
/-- A release build for a 32-bit target. -/
def release32 : Profile := ⟨false, false, 32⟩

/-- The vector of BIP39, in any build. -/
example (P : Profile) (hP : Target P) :
    Mnemonic.fromEntropyP P Real.hashes vecEntropy .english = .ok ⟨vecPhrase, .english, vecEntropy⟩ := by
  rw [(C85_build_profile P hP Real.hashes .english).1 vecEntropy ?_, vec_fromEntropy]
  have := P.pow_ge hP.ge
  have : vecEntropy.length = 16 := by decide
  omega

/-- The functions do look at the profile: the same subtraction, checked and not. -/
example : (dev32.sub 32 3 5 : Res Unit Nat) = .panic ∧ (release32.sub 32 3 5 : Res Unit Nat) = .ok (2 ^ 32 - 2) ∧
    (dev32.shr (0x80 : BitVec 8) 8 : Res Unit _) = .panic ∧ (release32.shr (0x80 : BitVec 8) 8 : Res Unit _) = .ok 0x80 := by
  decide

theorem arith_big (P : Profile) {ε : Type} {bits n : Nat} {x : Int} (hx : x = n) (h : 2 ^ bits ≤ n) :
    (P.arith bits x : Res ε Nat) = if P.overflowChecks then .panic else .ok (n % 2 ^ bits) := by
  subst hx
  unfold Profile.arith
  rw [if_neg]
  · split
    · rfl
    · congr 1
  · intro hh
    have : ((n : Int)) < ((2 ^ bits : Nat) : Int) := by push_cast; exact hh.2
    omega

/-- `BitWriter::len` for any number of bits. -/
theorem lenP_mod (P : Profile) (w : BitWriter) (hP : 32 ≤ P.usizeBits) :
    (w.lenP P : Res ErrorKind Nat) =
      if w.len < 2 ^ P.usizeBits then .ok w.len else if P.overflowChecks then .panic else .ok (w.len % 2 ^ P.usizeBits) := by
  by_cases h : w.len < 2 ^ P.usizeBits
  · rw [if_pos h, lenP_eq P w h]
  · rw [if_neg h, BitWriter.lenP]
    have hp := P.pow_ge hP
    unfold BitWriter.len at h ⊢
    by_cases h1 : w.inner.length * 8 < 2 ^ P.usizeBits
    · rw [mul_ok P h1, Res.ok_bind]
      exact arith_big P (by push_cast; rfl) (by omega)
    · rw [Profile.mul, arith_big P (n := w.inner.length * 8) (by push_cast; rfl) (by omega)]
      by_cases hc : P.overflowChecks = true
      · simp [hc]
      · simp only [hc, Bool.false_eq_true, if_false, Res.ok_bind, Profile.add]
        by_cases h2 : w.inner.length * 8 % 2 ^ P.usizeBits + w.offset < 2 ^ P.usizeBits
        · rw [arith_ok P (n := w.inner.length * 8 % 2 ^ P.usizeBits + w.offset) (by push_cast; rfl) h2]
          congr 1
          rw [← Nat.mod_add_mod, Nat.mod_eq_of_lt h2]
        · rw [arith_big P (n := w.inner.length * 8 % 2 ^ P.usizeBits + w.offset) (by push_cast; rfl) (by omega)]
          simp only [hc, Bool.false_eq_true, if_false]
          rw [Nat.mod_add_mod]

theorem flatMap_bits_take (idx : List Nat) (m : Nat) :
    (idx.flatMap (bitsOfNat 11)).take (11 * m) = (idx.take m).flatMap (bitsOfNat 11) := by
  induction m generalizing idx with
  | zero => simp
  | succ m ih =>
    cases idx with
    | nil => simp
    | cons i idx =>
      simp only [List.flatMap_cons, List.take_succ_cons]
      rw [List.take_append, List.take_of_length_le (by rw [bitsOfNat_length]; omega), bitsOfNat_length]
      congr 1
      rw [← ih]
      congr 1

theorem wordsAt_take {wl ws : List Str} {idx : List Nat} (h : WordsAt wl ws idx) (m : Nat) :
    WordsAt wl (ws.take m) (idx.take m) := by
  induction m generalizing ws idx with
  | zero => simp [WordsAt]
  | succ m ih =>
    cases ws with
    | nil =>
      have := wordsAt_length h
      simp at this
      rw [List.length_eq_zero_iff.mp this.symm]
      exact wordsAt_nil _
    | cons w ws =>
      cases idx with
      | nil => simp [WordsAt] at h
      | cons i idx =>
        rw [wordsAt_cons] at h
        simp only [List.take_succ_cons]
        rw [wordsAt_cons]
        exact ⟨h.1, ih h.2⟩

/-- The phrase of the words `ws` in any build, whatever their number. -/
theorem phraseToEntropyP_any (P : Profile) (hP : Target P) (H : Hashes) (l : Language) (ws : List Str)
    (hne : ws ≠ []) (hw : ∀ w ∈ ws, w ∈ l.wordlist) (hbig : 2 ^ P.usizeBits ≤ 11 * ws.length) :
    (P.overflowChecks = true → Mnemonic.phraseToEntropyP P H (join [' '] ws) l = .panic) ∧
    (P.overflowChecks = false → ∀ m, m = 11 * ws.length % 2 ^ P.usizeBits / 11 →
      (m ∉ sizes → Mnemonic.phraseToEntropyP P H (join [' '] ws) l = .err (.invalidWordLength m)) ∧
      (m ∈ sizes → P.debugAssertions = true ∧ 11 * ws.length % 2 ^ P.usizeBits ≠ 11 * m →
        Mnemonic.phraseToEntropyP P H (join [' '] ws) l = .panic) ∧
      (m ∈ sizes → ¬ (P.debugAssertions = true ∧ 11 * ws.length % 2 ^ P.usizeBits ≠ 11 * m) →
        Mnemonic.phraseToEntropyP P H (join [' '] ws) l = Mnemonic.phraseToEntropy H (join [' '] (ws.take m)) l)) := by
  have hp := P.pow_ge hP.ge
  have hsplit : splitChar ' ' (join [' '] ws) = ws :=
    splitChar_join ws hne fun w h => noWs_no_space (wordlist_clean l w (hw w h)).2
  obtain ⟨idx, hi⟩ := wordsAt_exists l ws hw
  obtain ⟨w, hinv, hbits, heq⟩ := phraseToEntropyP_words P hP.ge H (join [' '] ws) l idx (by rw [hsplit]; exact hi)
  have hlen : w.len = 11 * ws.length := by
    rw [BitWriter.len_eq, hbits, flatMap_bits_length, wordsAt_length hi]
  rw [heq, lenP_mod P w hP.ge, if_neg (by omega), hlen]
  refine ⟨fun hc => by simp [hc], fun hc m hm => ?_⟩
  simp only [hc, Bool.false_eq_true, if_false, Res.ok_bind, ← hm]
  refine ⟨fun h => if_neg h, fun h hd => by rw [if_pos h, if_pos hd], fun h hd => ?_⟩
  rw [if_pos h, if_neg hd]
  have hmle : m ≤ ws.length := by
    have := Nat.mod_le (11 * ws.length) (2 ^ P.usizeBits)
    omega
  have hk : 1 ≤ m / 3 ∧ m / 3 ≤ 8 ∧ 33 * (m / 3) = 11 * m := by simp [sizes] at h; omega
  have hm' : (ws.take m).length = m := by simp [hmle]
  have hmne : ws.take m ≠ [] := ne_nil_of_sizes (by rw [hm']; exact h)
  have hsplit' : splitChar ' ' (join [' '] (ws.take m)) = ws.take m :=
    splitChar_join _ hmne fun w h => noWs_no_space (wordlist_clean l w (hw w (List.mem_of_mem_take h))).2
  have hi' := wordsAt_take hi m
  obtain ⟨w', g1, g2, g3⟩ := pushWords_ok l _ _ hi' _ BitWriter.inv_withCapacity
  rw [BitWriter.bits_withCapacity, List.nil_append] at g3
  obtain ⟨t, t1, t2, t3, t4⟩ := forWordCount_ok h
  have hbl' : w'.bits.length = 11 * m := by rw [g3, flatMap_bits_length, ← wordsAt_length hi', hm']
  have hlen' : w'.len = 11 * m := by rw [BitWriter.len_eq, hbl']
  have hbl : w.bits.length = 11 * ws.length := by rw [← BitWriter.len_eq, hlen]
  rw [verify_congr H w w' hinv g2 _ hk.1 hk.2.1 (by omega) (by omega)]
  · simp only [Mnemonic.phraseToEntropy, hsplit', g1, Res.ok_bind, hlen', Nat.mul_div_cancel_left _ (show 0 < 11 by omega),
      t1, t2, t3, t4, verify]
    simp
  · rw [hk.2.2, hbits, flatMap_bits_take, g3, ← flatMap_bits_take, List.take_take, Nat.min_self, flatMap_bits_take]

/-- **C86** Inputs too long for the machine's integers (slices of 2^usize bits and more, phrases of list words with 2^usize bits
and more in their words).  With overflow checks on, `from_entropy` and `validate` panic.  Without checks the number of bits
is reduced modulo 2^usize: `from_entropy` reports the reduced number unless it is a key size, and `validate` of `n` words reports
`m`, or, if `m` is 12, 15, 18, 21 or 24, answers as for the first `m` words alone, where `m` is `11 n` reduced, divided by 11.
With debug assertions on it panics instead of that answer if the division has a remainder. -/
theorem C86_overlong_inputs (P : Profile) (hP : Target P) (H : Hashes) (l : Language) :
    (∀ e : Bytes, 2 ^ P.usizeBits ≤ 8 * e.length →
      (P.overflowChecks = true → Mnemonic.fromEntropyP P H e l = .panic) ∧
      (P.overflowChecks = false → 8 * e.length % 2 ^ P.usizeBits ∉ [128, 160, 192, 224, 256] →
        Mnemonic.fromEntropyP P H e l = .err (.invalidKeysize (8 * e.length % 2 ^ P.usizeBits)))) ∧
    (∀ ws : List Str, (∀ w ∈ ws, w ∈ words l) → 2 ^ P.usizeBits ≤ 11 * ws.length →
      (P.overflowChecks = true → Mnemonic.validateP P H (spaced ws) l = .panic) ∧
      (P.overflowChecks = false → ∀ m, m = 11 * ws.length % 2 ^ P.usizeBits / 11 →
        (m ∉ [12, 15, 18, 21, 24] → Mnemonic.validateP P H (spaced ws) l = .err (.invalidWordLength m)) ∧
        (m ∈ [12, 15, 18, 21, 24] → Mnemonic.validateP P H (spaced ws) l =
          if P.debugAssertions = true ∧ 11 * ws.length % 2 ^ P.usizeBits % 11 ≠ 0 then .panic
          else Mnemonic.validate H (spaced (ws.take m)) l))) := by
  have hp := P.pow_ge hP.ge
  refine ⟨fun e he => ?_, fun ws hw hbig => ?_⟩
  · have hm : (P.mul P.usizeBits e.length 8 : Res ErrorKind Nat) =
        if P.overflowChecks then .panic else .ok (8 * e.length % 2 ^ P.usizeBits) := by
      rw [Profile.mul, arith_big P (n := 8 * e.length) (by omega) he]
    refine ⟨fun hc => ?_, fun hc hk => ?_⟩
    · rw [Mnemonic.fromEntropyP, hm, if_pos hc]; rfl
    · rw [Mnemonic.fromEntropyP, hm, if_neg (by simp [hc]), Res.ok_bind]
      rcases forKeySize_cases (8 * e.length % 2 ^ P.usizeBits) with ⟨h, _⟩ | ⟨_, h⟩
      · exact absurd h hk
      · rw [h]; rfl
  · have hne : ws ≠ [] := by
      rintro rfl
      simp at hbig
    obtain ⟨h1, h2⟩ := phraseToEntropyP_any P hP H l ws hne (by rw [words_eq]; exact hw) hbig
    rw [← spaced_eq_join] at h1
    refine ⟨fun hc => by rw [Mnemonic.validateP, h1 hc]; rfl, fun hc m hm => ?_⟩
    obtain ⟨a, b, c⟩ := h2 hc m hm
    rw [← spaced_eq_join, ← spaced_eq_join] at *
    refine ⟨fun h => by rw [Mnemonic.validateP, a h]; rfl, fun h => ?_⟩
    have hr : 11 * ws.length % 2 ^ P.usizeBits ≠ 11 * m ↔ 11 * ws.length % 2 ^ P.usizeBits % 11 ≠ 0 := by omega
    rw [hr] at b c
    split
    · rename_i hd
      rw [Mnemonic.validateP, b h hd]
      rfl
    · rename_i hd
      rw [Mnemonic.validateP, c h hd, Mnemonic.validate]

-- 2^29 bytes, which 32 bits allow, have 2^32 bits
example : Target release32 ∧ 2 ^ release32.usizeBits ≤ 8 * (List.replicate (2 ^ 29) (0 : UInt8)).length := by
  refine ⟨.inl rfl, ?_⟩
  rw [List.length_replicate]
  decide

/-- The words of the second BIP39 vector. -/
def vecWords : List Str :=
  ["legal", "winner", "thank", "year", "wave", "sausage", "worth", "useful", "legal", "winner", "thank", "yellow"].map
    String.toList

theorem sum_replicate_nat (n k : Nat) : (List.replicate n k).sum = n * k := by
  induction n with
  | zero => simp
  | succ n ih => rw [List.replicate_succ, List.sum_cons, ih, Nat.succ_mul, Nat.add_comm]

theorem spaced_length (ws : List Str) (h : ws ≠ []) : (spaced ws).length + 1 = (ws.map (·.length + 1)).sum := by
  induction ws with
  | nil => exact absurd rfl h
  | cons w ws ih =>
    cases ws with
    | nil => simp [spaced]
    | cons v vs =>
      have := ih (by simp)
      simp only [spaced, List.length_append, List.length_cons, List.map_cons, List.sum_cons] at this ⊢
      omega

/-- On a 32-bit release build `validate` accepts a phrase of 390451585 words, a valid phrase followed by 390451573 times "act";
its text fits the 2^31 - 1 bytes a `String` can have there.  A development build panics. -/
theorem C86_long_phrase_accepted (ws : List Str) (hws : ws = vecWords ++ List.replicate 390451573 "act".toList) :
    (spaced ws).length < 2 ^ 31 ∧
    Mnemonic.validateP release32 Real.hashes (spaced ws) .english = .ok () ∧
    Mnemonic.validateP dev32 Real.hashes (spaced ws) .english = .panic := by
  obtain ⟨n, hn⟩ : ∃ n, n = 390451573 := ⟨_, rfl⟩
  rw [← hn] at hws
  have hlen : ws.length = 390451585 := by
    have : vecWords.length = 12 := by decide
    rw [hws, List.length_append, List.length_replicate]; omega
  have hmem : ∀ w ∈ ws, w ∈ words .english := by
    intro w hw
    rw [hws, List.mem_append] at hw
    rcases hw with hw | hw
    · have : ∀ w ∈ vecWords, w ∈ Data.english := by decide +kernel
      exact this w hw
    · rw [(List.mem_replicate.mp hw).2]
      have : "act".toList ∈ Data.english := by decide +kernel
      exact this
  have htake : ws.take 12 = vecWords := by
    rw [hws, List.take_append_of_le_length (by decide)]
    decide
  refine ⟨?_, ?_, ?_⟩
  · have h := spaced_length ws (by intro e; rw [e] at hlen; simp at hlen)
    rw [hws, List.map_append, List.sum_append, List.map_replicate, sum_replicate_nat, ← hws] at h
    have h1 : (vecWords.map (·.length + 1)).sum = 76 := by decide
    have h2 : "act".toList.length = 3 := by decide
    rw [h1, h2] at h
    simp at h
    omega
  · have h := ((C86_overlong_inputs release32 (.inl rfl) Real.hashes .english).2 ws hmem (by rw [hlen]; decide)).2 rfl 12
      (by rw [hlen]; decide)
    rw [h.2 (by decide), if_neg (fun hd => Bool.false_ne_true hd.1), htake]
    exact (C10_validate_iff_verbatim _ _ _).mpr ⟨_, vec_fromPhrase, by decide⟩
  · exact ((C86_overlong_inputs dev32 (.inl rfl) Real.hashes .english).2 ws hmem (by rw [hlen]; decide)).1 rfl

/-- **C87** The text of keys does not depend on how the crate is compiled either: with overflow checks on or off and a `usize` of
32 or 64 bits, Base58Check writes the same text or error for every payload and buffer, and reads every string with the same
outcome and the same bytes left in the buffer; no carry, digit or position overflows.  (Buffers below 2 GiB; the crate's have 112
and 82 bytes.) -/
theorem C87_base58_profile (P : Profile) (hP : Target P) (H : Hashes) (cap : Nat) (hcap : cap < 2 ^ 31) :
    (∀ payload, Base58.encodeCheckP P H cap payload = Base58.encodeCheck H cap payload) ∧
    (∀ s, (Base58.decodeCheckP P H cap s : Res Unit _) = .ok (Base58.decodeCheck H cap s)) :=
  ⟨fun _ => Base58.encodeIntoP_eq P hP.ge cap _ hcap, fun s => Base58.decodeCheckP_eq P hP.ge H cap s hcap⟩

/-- A 32-bit development build encodes and decodes. -/
example : Base58.encodeIntoP dev32 20 [0, 255, 1, 2] = .ok "12Uess".toList ∧
    (Base58.decodeIntoP dev32 4 "12Uess".toList : Res Unit _) = .ok ([0, 255, 1, 2], .ok 4) := by
  decide +kernel

end Kms.Props
