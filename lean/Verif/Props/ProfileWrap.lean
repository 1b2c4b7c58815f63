import Verif.Props.Profile
/-
C86, the slices whose number of bits is an allowed size only modulo 2^usize.
-/
namespace Kms.Props
open Spec Bip39 Profile

theorem joinBitsP_wrapped (P : Profile) (hP : Target P) (hc : P.overflowChecks = false) (wl : WordList) (source : Bytes) {k : Nat}
    (hbig : 2 ^ P.usizeBits ≤ 8 * source.length) (hk : 8 * source.length % 2 ^ P.usizeBits = k) (h1 : 64 ≤ k) (h2 : k ≤ 1024) :
    joinBitsP P wl (BitIter.new source) = (getWords wl (BitIter.new source).toList).map (join [' ']) := by
  have hp := P.pow_ge hP.ge
  have hinv : (BitIter.new source).Inv := by simp [BitIter.Inv, BitIter.new]
  have hb : (BitIter.new source).bits = bitsOfBytes source := by simp [BitIter.bits, BitIter.new]
  rw [joinBitsP, nextP_eq P hP.ge _ hinv, Res.ok_bind]
  have hlist : (BitIter.new source).toList = BitIter.toListFuel ((BitIter.new source).bits.length + 1) (BitIter.new source) := by
    rw [BitIter.toList]
    exact toListFuel_mono _ _ _ hinv (by rw [hb]; simp [BitIter.new]; omega) (by omega)
  rw [hlist, BitIter.toListFuel]
  rcases BitIter.next_spec _ hinv with ⟨_, hn⟩ | ⟨h11, v, it', hn, _, hbits, hi⟩
  · rw [hn]; rfl
  · rw [hn]
    simp only [getWords]
    have hlen : it'.bits.length + 11 = 8 * source.length := by
      rw [hbits, hb]; simp
      rw [hb] at h11; simp at h11; omega
    have hsrc : it'.read + 8 * it'.source.length = it'.bits.length := by simp [BitIter.bits]
    have hr := hi.1
    obtain ⟨d, hd, hd'⟩ : ∃ d, 8 * source.length = it'.source.length * 8 + d ∧ d ≤ 29 := ⟨it'.read + 11, by omega, by omega⟩
    have hmod : it'.source.length * 8 % 2 ^ P.usizeBits = k - d := by
      have hq := Nat.div_add_mod (8 * source.length) (2 ^ P.usizeBits)
      rw [hk] at hq
      have e : it'.source.length * 8 = (k - d) + 2 ^ P.usizeBits * (8 * source.length / 2 ^ P.usizeBits) := by omega
      rw [e, Nat.add_mul_mod_self_left, Nat.mod_eq_of_lt (by omega)]
    have hge : 2 ^ P.usizeBits ≤ it'.source.length * 8 := by
      by_contra hlt
      rw [Nat.mod_eq_of_lt (by omega)] at hmod
      omega
    have hmul : (P.mul P.usizeBits it'.source.length 8 : Res ErrorKind Nat) = .ok (k - d) := by
      rw [Profile.mul, arith_big P (n := it'.source.length * 8) (by push_cast; rfl) hge, hmod, if_neg (by simp [hc])]
    cases hw : Language.getWord wl v with
    | err e => rfl
    | panic => rfl
    | ok w =>
      rw [Res.ok_bind, Res.ok_bind, BitIter.sizeHintP, hmul, Res.ok_bind, Res.ok_bind,
        joinCapacityP_eq P hP.ge _ (by omega), Res.ok_bind, wordsP_eq P hP.ge _ _ _ hi,
        toListFuel_mono _ ((BitIter.new source).bits.length) it' hi (by omega) (by rw [hb]; simp; omega)]
      cases getWords wl (BitIter.toListFuel (BitIter.new source).bits.length it') <;> rfl

/-- **C86** In a build without overflow checks, `from_entropy` accepts a slice of 2^usize bits or more whose number of bits
is an allowed size modulo 2^usize: the mnemonic holds the whole slice, and its phrase has a word for every 11 complete bits of the
slice followed by one byte of its SHA-256, which is more than 24 words (given memory for its text). -/
theorem C86_from_entropy_wrapped (P : Profile) (hP : Target P) (hc : P.overflowChecks = false) (H : Hashes) (l : Language)
    (e : Bytes) (he : 2 ^ P.usizeBits ≤ 8 * e.length) (hk : 8 * e.length % 2 ^ P.usizeBits ∈ [128, 160, 192, 224, 256]) :
    ∃ ws idx, Mnemonic.fromEntropyP P H e l = .ok ⟨spaced ws, l, e⟩ ∧ WordsAt (words l) ws idx ∧
      ws.length = (8 * e.length + 8) / 11 ∧ 24 < ws.length ∧
      idx.flatMap (bitsOfNat 11) = (bitsOfBytes e ++ (bitsOfBytes (H.sha256 e).1).take 8).take (11 * ws.length) := by
  have hp := P.pow_ge hP.ge
  obtain ⟨k, hk'⟩ : ∃ k, 8 * e.length % 2 ^ P.usizeBits = k := ⟨_, rfl⟩
  rw [hk'] at hk
  have hkb : 128 ≤ k ∧ k ≤ 256 := by
    simp only [List.mem_cons, List.not_mem_nil, or_false] at hk
    omega
  have hmul : (P.mul P.usizeBits e.length 8 : Res ErrorKind Nat) = .ok k := by
    rw [Profile.mul, arith_big P (n := 8 * e.length) (by omega) he, hk', if_neg (by simp [hc])]
  have hsrc : 8 * (e ++ [H.sha256FirstByte e]).length = 8 * e.length + 8 := by simp; omega
  obtain ⟨ws, g1, g2⟩ := getWords_spec l (BitIter.new (e ++ [H.sha256FirstByte e])).toList (toList_lt _)
  have hl := wordsAt_length g2
  rw [toList_map_toNat, hsrc] at g2 hl
  simp only [List.length_map, List.length_range] at hl
  refine ⟨ws, _, ?_, words_eq l ▸ g2, hl, by rw [hl]; omega, ?_⟩
  · rw [Mnemonic.fromEntropyP, hmul, Res.ok_bind]
    rcases forKeySize_cases k with ⟨_, h⟩ | ⟨h, _⟩
    · cases hf : MnemonicType.forKeySize k with
      | ok t =>
        rw [Res.ok_bind, Mnemonic.fromEntropyUncheckedP, wordlistP_eq P, Res.ok_bind]
        simp only
        rw [joinBitsP_wrapped P hP hc _ _ (k := k + 8) (by omega) ?_ (by omega) (by omega), g1, spaced_eq_join]
        · rfl
        · rw [hsrc, Nat.add_mod, hk', Nat.mod_eq_of_lt (a := 8) (by omega), Nat.mod_eq_of_lt (by omega)]
      | err x => rw [hf] at h; exact absurd h (by simp [Res.isOk])
      | panic => rw [hf] at h; exact absurd h (by simp [Res.isOk])
    · exact absurd hk h
  · rw [flatMap_map_bits _ _ (by simp; omega), hl, sha256_bits_head H e 8 (by omega), bitsOfBytes_append, bitsOfBytes_cons, bitsOfBytes_nil,
      List.append_nil, List.take_of_length_le (i := 8) (by simp)]

/-- On a 32-bit release build 2^29 + 16 zero bytes make a mnemonic of 390451584 words; a development build panics. -/
theorem C86_long_entropy_accepted (H : Hashes) (e : Bytes) (he : e = List.replicate (2 ^ 29 + 16) 0) :
    (∃ ws, Mnemonic.fromEntropyP release32 H e .english = .ok ⟨spaced ws, .english, e⟩ ∧ ws.length = 390451584) ∧
    Mnemonic.fromEntropyP dev32 H e .english = .panic := by
  have hl : e.length = 2 ^ 29 + 16 := by rw [he, List.length_replicate]
  refine ⟨?_, ((C86_overlong_inputs dev32 (.inl rfl) H .english).1 e (by rw [hl]; decide)).1 rfl⟩
  obtain ⟨ws, _, h1, _, h2, _⟩ := C86_from_entropy_wrapped release32 (.inl rfl) rfl H .english e (by rw [hl]; decide) (by rw [hl]; decide)
  exact ⟨ws, h1, by omega⟩

end Kms.Props
