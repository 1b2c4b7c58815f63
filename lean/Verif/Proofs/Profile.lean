import Verif.Model.Profile
import Verif.Proofs.Mnemonic
/-
The parametrised functions of `Verif/Model/Profile.lean` never reach an overflow, a shift that is too long or a failing
assertion, so they agree with the functions of the rest of the model.
-/
namespace Kms
open Kms.Spec

namespace Profile
variable {ε : Type}

theorem arith_ok (P : Profile) {bits : Nat} {x : Int} {n : Nat} (hx : x = n) (h : n < 2 ^ bits) :
    (P.arith bits x : Res ε Nat) = .ok n := by
  subst hx
  have h2 : ((n : Int)) < (2 : Int) ^ bits := by exact_mod_cast h
  unfold arith
  rw [if_pos ⟨by omega, h2⟩]
  simp

theorem add_ok (P : Profile) {bits a b : Nat} (h : a + b < 2 ^ bits) : (P.add bits a b : Res ε Nat) = .ok (a + b) :=
  arith_ok P (by push_cast; rfl) h

theorem sub_ok (P : Profile) {bits a b : Nat} (h : b ≤ a) (h' : a < 2 ^ bits) :
    (P.sub bits a b : Res ε Nat) = .ok (a - b) :=
  arith_ok P (by omega) (by omega)

theorem mul_ok (P : Profile) {bits a b : Nat} (h : a * b < 2 ^ bits) : (P.mul bits a b : Res ε Nat) = .ok (a * b) :=
  arith_ok P (by push_cast; rfl) h

theorem shl_ok (P : Profile) {w : Nat} {x : BitVec w} {n : Nat} (h : n < w) : (P.shl x n : Res ε _) = .ok (x <<< n) := by
  simp [shl, h]

theorem shr_ok (P : Profile) {w : Nat} {x : BitVec w} {n : Nat} (h : n < w) : (P.shr x n : Res ε _) = .ok (x >>> n) := by
  simp [shr, h]

theorem debugAssert_ok (P : Profile) {b : Bool} (h : b = true) : (P.debugAssert b : Res ε Unit) = .ok () := by
  simp [debugAssert, h]

/-- The least `usize` that occurs has 32 bits. -/
theorem pow_ge (P : Profile) (h : 32 ≤ P.usizeBits) : 2 ^ 32 ≤ 2 ^ P.usizeBits := Nat.pow_le_pow_right (by omega) h

theorem capacity_ok (P : Profile) (h : 32 ≤ P.usizeBits) {n : Nat} (hn : n < 2 ^ 31) : (P.withCapacity n : Res ε Unit) = .ok () := by
  have : 2 ^ 31 ≤ 2 ^ (P.usizeBits - 1) := Nat.pow_le_pow_right (by omega) (by omega)
  simp only [withCapacity]
  rw [if_pos (by omega)]

end Profile

namespace Bip39
open Profile
variable {ε : Type} (P : Profile) (hP : 32 ≤ P.usizeBits)

include hP

theorem withCapacityP_eq : (BitWriter.withCapacityP P 264 : Res ε BitWriter) = .ok BitWriter.withCapacity := by
  have := P.pow_ge hP
  simp [BitWriter.withCapacityP, BitWriter.withCapacity, capacity_ok P hP]

theorem flushP_eq (fuel : Nat) (w : BitWriter) (hf : w.offset ≤ fuel) (h : w.offset < 2 ^ 32) :
    (BitWriter.flushP P fuel w : Res ε BitWriter) = .ok (BitWriter.flush w.offset w.remainder w.inner) := by
  have hp := P.pow_ge hP
  induction fuel generalizing w with
  | zero =>
    have h0 : w.offset = 0 := by omega
    rw [BitWriter.flushP, h0, BitWriter.flush]
    · rw [← h0]
    · intro k hk; omega
  | succ fuel ih =>
    rw [BitWriter.flushP]
    by_cases h8 : 8 ≤ w.offset
    · obtain ⟨k, hk⟩ : ∃ k, w.offset = k + 8 := ⟨w.offset - 8, by omega⟩
      rw [if_pos h8, shr_ok P (by omega), Res.ok_bind, shl_ok P (by omega), Res.ok_bind,
        sub_ok P h8 (by omega), Res.ok_bind, ih _ (by simp; omega) (by simp; omega), hk, BitWriter.flush]
      simp
    · rw [if_neg h8, BitWriter.flush]
      intro k hk; omega

theorem pushP_eq (w : BitWriter) (v : Bits11) (h : w.offset < 8) : (w.pushP P v : Res ε BitWriter) = .ok (w.push v) := by
  have hp := P.pow_ge hP
  rw [BitWriter.pushP, sub_ok P (by omega) (by omega), Res.ok_bind, shl_ok P (by omega), Res.ok_bind, shr_ok P (by omega),
    Res.ok_bind, add_ok P (by omega), Res.ok_bind, flushP_eq P hP _ _ (by simp) (by simp; omega)]
  rfl

omit hP in
theorem lenP_eq (w : BitWriter) (h : w.len < 2 ^ P.usizeBits) : (w.lenP P : Res ε Nat) = .ok w.len := by
  unfold BitWriter.len at h
  rw [BitWriter.lenP, mul_ok P (by omega), Res.ok_bind, add_ok P h]
  rfl

omit hP in
theorem intoBytesP_eq (w : BitWriter) : (w.intoBytesP P : Res ε Bytes) = .ok w.intoBytes := by
  unfold BitWriter.intoBytesP BitWriter.intoBytes
  split
  · rw [shr_ok P (by omega), Res.ok_bind]
  · rfl

theorem fillP_eq (source : Bytes) (read : Nat) (buffer : BitVec 64) :
    (BitIter.fillP P source read buffer : Res ε _) = .ok (BitIter.fill source read buffer) := by
  have hp := P.pow_ge hP
  induction source generalizing read buffer with
  | nil =>
    rw [BitIter.fillP, BitIter.fill]
    split <;> rfl
  | cons b rest ih =>
    rw [BitIter.fillP, BitIter.fill]
    split
    · rw [add_ok P (by omega), Res.ok_bind, sub_ok P (by omega) (by omega), Res.ok_bind, shl_ok P (by omega), Res.ok_bind, ih]
    · rfl

theorem nextP_eq (it : BitIter) (h : it.Inv) : (it.nextP P : Res ε _) = .ok it.next := by
  have hp := P.pow_ge hP
  rw [BitIter.nextP, fillP_eq P hP, Res.ok_bind, BitIter.next]
  cases hs : BitIter.fill it.source it.read it.buffer with
  | none => rfl
  | some it' =>
    obtain ⟨_, hi, h11⟩ := BitIter.fill_spec h.1 h.2 hs
    have := hi.1
    simp only
    rw [sub_ok P (by omega) (by omega), Res.ok_bind, shr_ok P (by omega), Res.ok_bind, shl_ok P (by omega), Res.ok_bind,
      sub_ok P h11 (by omega), Res.ok_bind]

theorem wordsP_eq (wl : WordList) (fuel : Nat) (it : BitIter) (h : it.Inv) :
    wordsP P wl fuel it = getWords wl (BitIter.toListFuel fuel it) := by
  induction fuel generalizing it with
  | zero => rfl
  | succ fuel ih =>
    rw [wordsP, nextP_eq P hP it h, Res.ok_bind, BitIter.toListFuel]
    rcases BitIter.next_spec it h with ⟨_, hn⟩ | ⟨_, v, it', hn, _, _, hi⟩
    · rw [hn]; rfl
    · rw [hn]
      simp only [getWords]
      rw [ih it' hi]

omit P hP in
/-- Enough fuel is enough. -/
theorem toListFuel_mono (fuel fuel' : Nat) (it : BitIter) (h : it.Inv) (hf : it.bits.length ≤ fuel)
    (hf' : it.bits.length ≤ fuel') : BitIter.toListFuel fuel it = BitIter.toListFuel fuel' it := by
  obtain ⟨a1, a2⟩ := BitIter.toListFuel_spec fuel it h hf
  obtain ⟨b1, b2⟩ := BitIter.toListFuel_spec fuel' it h hf'
  apply List.ext_getElem (by rw [a1, b1])
  intro i h1 h2
  apply BitVec.eq_of_toNat_eq
  rw [a2, b2]

theorem joinCapacityP_eq (lower : Nat) (h : lower * 11 < 2 ^ 31) : joinCapacityP P lower = .ok () := by
  have hp := P.pow_ge hP
  rw [joinCapacityP, add_ok P (by omega), Res.ok_bind, mul_ok P (by omega), Res.ok_bind, capacity_ok P hP (by omega)]

theorem joinWordsP_eq (ws : List Str) : joinWordsP P ws = .ok (join [' '] ws) := by
  cases ws with
  | nil => rfl
  | cons w ws => rw [joinWordsP, joinCapacityP_eq P hP 0 (by omega), Res.ok_bind]

theorem joinBitsP_eq (wl : WordList) (source : Bytes) (h : source.length < 2 ^ 20) :
    joinBitsP P wl (BitIter.new source) =
      (getWords wl (BitIter.new source).toList).map (join [' ']) := by
  have hp := P.pow_ge hP
  have hinv : (BitIter.new source).Inv := by simp [BitIter.Inv, BitIter.new]
  have hb : (BitIter.new source).bits = bitsOfBytes source := by simp [BitIter.bits, BitIter.new]
  rw [joinBitsP, nextP_eq P hP _ hinv, Res.ok_bind]
  have hlist : (BitIter.new source).toList = BitIter.toListFuel ((BitIter.new source).bits.length + 1) (BitIter.new source) := by
    rw [BitIter.toList]
    exact toListFuel_mono _ _ _ hinv (by rw [hb]; simp [BitIter.new]; omega) (by omega)
  rw [hlist, BitIter.toListFuel]
  rcases BitIter.next_spec _ hinv with ⟨_, hn⟩ | ⟨h11, v, it', hn, _, hbits, hi⟩
  · rw [hn]; rfl
  · rw [hn]
    simp only [getWords]
    have hlen : it'.bits.length + 11 = 8 * source.length := by
      rw [hbits, hb]; simp
      rw [hb] at h11; simp at h11; omega
    have hsrc : it'.read + 8 * it'.source.length = it'.bits.length := by simp [BitIter.bits]
    cases hw : Language.getWord wl v with
    | err e => rfl
    | panic => rfl
    | ok w =>
      rw [Res.ok_bind, Res.ok_bind, BitIter.sizeHintP, mul_ok P (by omega), Res.ok_bind, Res.ok_bind,
        joinCapacityP_eq P hP _ (by omega), Res.ok_bind, wordsP_eq P hP _ _ _ hi,
        toListFuel_mono _ ((BitIter.new source).bits.length) it' hi (by omega) (by rw [hb]; simp; omega)]
      cases getWords wl (BitIter.toListFuel (BitIter.new source).bits.length it') <;> rfl

omit hP in
theorem checksumP_eq (b : UInt8) (k : Nat) (h1 : 1 ≤ k) (h8 : k ≤ 8) : checksumP P b k = checksum' b k := by
  rw [checksumP, debugAssert_ok P (by simp [h8]), Res.ok_bind, sub_ok P h8 (by omega), Res.ok_bind, shr_ok P (by omega), Res.ok_bind]
  simp [checksum', checksum, h1, h8]

theorem discr_lt (t : MnemonicType) : t.discr < 2 ^ P.usizeBits := by
  have := P.pow_ge hP
  have : t.discr < 2 ^ 32 := by cases t <;> decide
  omega

theorem entropyBitsP_eq (t : MnemonicType) : t.entropyBitsP P = .ok t.entropyBits := by
  rw [MnemonicType.entropyBitsP, shr_ok P (by simp [MnemonicType.ENTROPY_OFFSET]; omega), Res.ok_bind]
  simp [MnemonicType.entropyBits, Nat.mod_eq_of_lt (discr_lt P hP t)]

theorem checksumBitsP_eq (t : MnemonicType) : t.checksumBitsP P = t.checksumBits := by
  simp [MnemonicType.checksumBitsP, MnemonicType.checksumBits, Nat.mod_eq_of_lt (discr_lt P hP t)]

theorem totalBitsP_eq (t : MnemonicType) : t.totalBitsP P = .ok t.totalBits := by
  have := P.pow_ge hP
  rw [MnemonicType.totalBitsP, entropyBitsP_eq P hP, Res.ok_bind, checksumBitsP_eq P hP, add_ok P ?_]
  · rfl
  · have : t.entropyBits + t.checksumBits < 2 ^ 32 := by cases t <;> decide
    omega

theorem wordCountP_eq (t : MnemonicType) : t.wordCountP P = .ok t.wordCount := by
  rw [MnemonicType.wordCountP, totalBitsP_eq P hP, Res.ok_bind]; rfl

omit hP in
theorem wordlistP_eq (l : Language) : l.wordlistP P = .ok l.wordlist := by
  have h := wordlist_length l
  cases l <;>
  · simp only [Language.wordlist, genWordlist] at h
    simp only [Language.wordlistP, genWordlistP, Language.wordlist, genWordlist]
    rw [debugAssert_ok P (by simp [h]), Res.ok_bind]

omit hP in
theorem wordmapP_eq (l : Language) : l.wordmapP P = .ok l.wordmap := by
  rw [Language.wordmapP, wordlistP_eq P, Res.ok_bind]; rfl

theorem pushWordsP_eq (m : WordMap) (ws : List Str) (w : BitWriter) (h : w.Inv) :
    pushWordsP P m ws w = pushWords m ws w := by
  induction ws generalizing w with
  | nil => rfl
  | cons x ws ih =>
    rw [pushWordsP, pushWords]
    cases Language.getBits m x with
    | err e => rfl
    | panic => rfl
    | ok b =>
      rw [Res.ok_bind, Res.ok_bind, pushP_eq P hP w b h.1, Res.ok_bind, ih _ (BitWriter.push_spec w h b).2]

omit P hP in
/-- The last part of `phrase_to_entropy`: compare checksums. -/
def verify (H : Hashes) (bytes : Bytes) (n k : Nat) : Res ErrorKind Bytes := do
  let last ← index bytes n
  let a ← checksum' last k
  let b ← checksum' (H.sha256FirstByte (bytes.take n)) k
  if a ≠ b then .err .invalidChecksum else .ok (bytes.take n)

omit P hP in
theorem checksum'_congr {a b : UInt8} {k : Nat} (h1 : 1 ≤ k) (h8 : k ≤ 8)
    (h : (bitsOfNat 8 a.toNat).take k = (bitsOfNat 8 b.toNat).take k) : checksum' a k = checksum' b k := by
  obtain ⟨v, e, f⟩ := checksum'_spec a k h1 h8
  obtain ⟨v', e', f'⟩ := checksum'_spec b k h1 h8
  rw [e, e']
  congr 1
  rw [← UInt8.toNat_inj, f, f', h]

omit P hP in
/-- Only the first `33 k` bits matter. -/
theorem verify_congr (H : Hashes) (w1 w2 : BitWriter) (h1 : w1.Inv) (h2 : w2.Inv) (k : Nat) (hk : 1 ≤ k) (hk8 : k ≤ 8)
    (l1 : 33 * k ≤ w1.bits.length) (l2 : 33 * k ≤ w2.bits.length)
    (hb : w1.bits.take (33 * k) = w2.bits.take (33 * k)) :
    verify H w1.intoBytes (4 * k) k = verify H w2.intoBytes (4 * k) k := by
  have key : ∀ w : BitWriter, w.Inv → 33 * k ≤ w.bits.length → ∃ h : 4 * k < w.intoBytes.length,
      bitsOfBytes (w.intoBytes.take (4 * k)) = (w.bits.take (33 * k)).take (32 * k) ∧
      (bitsOfNat 8 (w.intoBytes[4 * k]).toNat).take k = (w.bits.take (33 * k)).drop (32 * k) := by
    intro w hw hl
    have hinto := BitWriter.intoBytes_spec w hw
    have hlen : 8 * w.intoBytes.length = w.bits.length + (8 - w.bits.length % 8) % 8 := by
      have := congrArg List.length hinto
      rwa [bitsOfBytes_length, List.length_append, List.length_replicate] at this
    refine ⟨by omega, ?_, ?_⟩
    · rw [bitsOfBytes_take, hinto, List.take_append_of_le_length (by omega), List.take_take]
      congr 1; omega
    · rw [bitsOfBytes_get _ _ (by omega), hinto, List.take_take, List.drop_append_of_le_length (by omega),
        List.take_append_of_le_length (by simp; omega), List.drop_take]
      congr 1
      · omega
      · congr 1; omega
  obtain ⟨i1, t1, d1⟩ := key w1 h1 l1
  obtain ⟨i2, t2, d2⟩ := key w2 h2 l2
  have ht : w1.intoBytes.take (4 * k) = w2.intoBytes.take (4 * k) := bitsOfBytes_inj (by rw [t1, t2, hb])
  unfold verify
  have e1 : index w1.intoBytes (4 * k) = .ok w1.intoBytes[4 * k] := by simp [index, List.getElem?_eq_getElem i1]
  have e2 : index w2.intoBytes (4 * k) = .ok w2.intoBytes[4 * k] := by simp [index, List.getElem?_eq_getElem i2]
  have hc : checksum' w1.intoBytes[4 * k] k = checksum' w2.intoBytes[4 * k] k :=
    checksum'_congr hk hk8 (by rw [d1, d2, hb])
  rw [e1, e2, Res.ok_bind, Res.ok_bind, ht, hc]

/-- The last part of `phrase_to_entropy`, once the type is known. -/
theorem tail_eq (H : Hashes) (w : BitWriter) {m : Nat} (hm : m ∈ sizes) :
    ∃ t, MnemonicType.forWordCount m = .ok t ∧ t.totalBits = 11 * m ∧
      (do
        let entropy ← w.intoBytesP P
        let entropyBits ← t.entropyBitsP P
        let entropyBytes := entropyBits / 8
        let last ← index entropy entropyBytes
        let actualChecksum ← checksumP P last (t.checksumBitsP P)
        let entropy := entropy.take entropyBytes
        let checksumByte := H.sha256FirstByte entropy
        let expectedChecksum ← checksumP P checksumByte (t.checksumBitsP P)
        if actualChecksum ≠ expectedChecksum then .err .invalidChecksum
        else .ok entropy : Res ErrorKind Bytes) = verify H w.intoBytes (4 * (m / 3)) (m / 3) := by
  obtain ⟨t, t1, t2, t3, t4⟩ := forWordCount_ok hm
  have hk : 1 ≤ m / 3 ∧ m / 3 ≤ 8 := by simp [sizes] at hm; omega
  refine ⟨t, t1, t2, ?_⟩
  simp only [intoBytesP_eq P, entropyBitsP_eq P hP, checksumBitsP_eq P hP, Res.ok_bind, t3, t4, verify]
  cases index w.intoBytes (4 * (m / 3)) with
  | err e => rfl
  | panic => rfl
  | ok b => simp only [Res.ok_bind, checksumP_eq P _ _ hk.1 hk.2]

/-- `phrase_to_entropy` on a phrase whose pieces are not all list words. -/
theorem phraseToEntropyP_badWord (H : Hashes) (p : Str) (l : Language) (h : ∃ w ∈ splitChar ' ' p, w ∉ l.wordlist) :
    Mnemonic.phraseToEntropyP P H p l = .err .invalidWord := by
  unfold Mnemonic.phraseToEntropyP
  rw [wordmapP_eq P, Res.ok_bind, withCapacityP_eq P hP, Res.ok_bind,
    pushWordsP_eq P hP _ _ _ BitWriter.inv_withCapacity, pushWords_err l _ h]
  rfl

/-- `phrase_to_entropy` on list words: what it does once `bits.len()` has been computed. -/
theorem phraseToEntropyP_words (H : Hashes) (p : Str) (l : Language) (idx : List Nat)
    (hi : WordsAt l.wordlist (splitChar ' ' p) idx) :
    ∃ w : BitWriter, w.Inv ∧ w.bits = idx.flatMap (bitsOfNat 11) ∧
      Mnemonic.phraseToEntropyP P H p l = (do
        let len ← w.lenP P
        if len / 11 ∈ sizes then
          if P.debugAssertions ∧ len ≠ 11 * (len / 11) then .panic
          else verify H w.intoBytes (4 * (len / 11 / 3)) (len / 11 / 3)
        else .err (.invalidWordLength (len / 11))) := by
  obtain ⟨w, h1, h2, h3⟩ := pushWords_ok l _ _ hi _ BitWriter.inv_withCapacity
  rw [BitWriter.bits_withCapacity, List.nil_append] at h3
  refine ⟨w, h2, h3, ?_⟩
  unfold Mnemonic.phraseToEntropyP
  rw [wordmapP_eq P, Res.ok_bind, withCapacityP_eq P hP, Res.ok_bind,
    pushWordsP_eq P hP _ _ _ BitWriter.inv_withCapacity, h1, Res.ok_bind]
  cases hl : (w.lenP P : Res ErrorKind Nat) with
  | err e => rfl
  | panic => rfl
  | ok len =>
    rw [Res.ok_bind, Res.ok_bind]
    by_cases hm : len / 11 ∈ sizes
    · obtain ⟨t, t1, t2, t3⟩ := tail_eq P hP H w hm
      rw [t1, Res.ok_bind, if_pos hm]
      simp only [totalBitsP_eq P hP, t2, Res.ok_bind, t3]
      by_cases hd : P.debugAssertions = true
      · by_cases he : len = 11 * (len / 11)
        · simp [hd, ← he]
        · simp [hd, he]
      · simp [hd]
    · rw [forWordCount_err hm, if_neg hm]; rfl

end Bip39
end Kms
