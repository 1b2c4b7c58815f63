import Verif.Props.Collisions
import Verif.Props.PhraseCount
/-
C111: two wallets have no round of PBKDF2 in common, unless SHA-512 collides or maps one phrase to another.
-/
namespace Kms.Props
open Kms.Bip39 Kms.Spec

/-- The key as HMAC uses it: hashed if longer than a block. -/
def preparedKey (h : Bytes → Bytes) (k : Bytes) : Bytes := if k.length > 128 then h k else k

/-- Equal HMACs have equal messages and keys that differ in trailing zero bytes at most, or two inputs of the hash function
collide. -/
theorem hmac_inj {h : Bytes → Bytes} {k k' m m' : Bytes} (e : hmac h k m = hmac h k' m') :
    (m = m' ∧ ∀ i < 128, (preparedKey h k).getD i 0 = (preparedKey h k').getD i 0) ∨
      Collides h (hmacHashes 128 h k m) (hmacHashes 128 h k' m') := by
  by_cases hc : Collides h (hmacHashes 128 h k m) (hmacHashes 128 h k' m')
  · exact .inr hc
  left
  have inj : ∀ a b, a ∈ hmacHashes 128 h k m → b ∈ hmacHashes 128 h k' m' → h a = h b → a = b := by
    intro a b ha hb hab
    by_contra hne
    exact hc ⟨a, ha, b, hb, hne, hab⟩
  unfold hmac at e
  have e2 := List.append_inj (inj _ _ (by simp [hmacHashes]) (by simp [hmacHashes]) e) (by simp)
  have e4 := List.append_inj (inj _ _ (by simp [hmacHashes]) (by simp [hmacHashes]) e2.2) (by simp)
  refine ⟨e4.2, fun i hi => ?_⟩
  have h3 := congrArg (fun l : List UInt8 => l[i]?) e4.1
  simp only [List.getElem?_map, List.getElem?_range hi, Option.map_some, Option.some.injEq] at h3
  have h5 := congrArg (· ^^^ (0x36 : UInt8)) h3
  simp only [UInt8.xor_assoc, UInt8.xor_self, UInt8.xor_zero] at h5
  exact h5

/-- Lists that agree when continued by zeros, the first of which has no zero. -/
theorem zeros_of_getD {a b : Bytes} (ha : ∀ x ∈ a, x ≠ 0) (hl : b.length ≤ 128) (hla : a.length ≤ 128)
    (h : ∀ i < 128, a.getD i 0 = b.getD i 0) : ∃ z, b = a ++ List.replicate z 0 := by
  have hab : a.length ≤ b.length := by
    by_contra hlt
    have h1 := h b.length (by omega)
    rw [List.getD_eq_getElem _ _ (by omega), List.getD_eq_default _ _ (by omega)] at h1
    exact ha _ (List.getElem_mem _) h1
  refine ⟨b.length - a.length, List.ext_getElem (by simp; omega) fun i h1 h2 => ?_⟩
  have h3 := h i (by omega)
  rw [List.getD_eq_getElem _ _ h1] at h3
  by_cases hi : i < a.length
  · rw [List.getElem_append_left hi, ← h3, List.getD_eq_getElem _ _ hi]
  · rw [List.getElem_append_right (by omega), List.getElem_replicate, ← h3, List.getD_eq_default _ _ (by omega)]

theorem eq_of_zeros {a b : Bytes} (hb : ∀ x ∈ b, x ≠ 0) {z : Nat} (h : b = a ++ List.replicate z 0) : b = a := by
  cases z with
  | zero => simpa using h
  | succ z =>
    exfalso
    refine hb 0 ?_ rfl
    rw [h]
    simp

theorem gb_codes_low : Data.gb18030.all (fun p => p.2 % 256 != 0) = true := by decide +kernel

/-- The bytes of a phrase have no zero among them. -/
theorem phrase_no_zero (H : Hashes) (m : Mnemonic) (hm : Constructible H m) : ∀ b ∈ m.asBytes, b ≠ 0 := by
  intro b hb
  cases hl : m.lang with
  | english =>
    unfold Mnemonic.asBytes utf8 at hb
    rw [if_neg (by rw [hl]; decide), List.mem_flatMap] at hb
    obtain ⟨c, hc, hb⟩ := hb
    have hlt : 0 < c.toNat ∧ c.toNat < 128 := by
      rcases (C69_text_forms H m hm).2.2.2.1 c hc with rfl | ⟨_, h', h⟩ | ⟨h, _⟩
      · decide
      · rw [Char.le_def, UInt32.le_iff_toNat_le] at h h'
        exact ⟨Nat.lt_of_lt_of_le (by decide) h', Nat.lt_of_le_of_lt h (by decide)⟩
      · rw [hl] at h; cases h
    have hv : 0 < c.val.toNat ∧ c.val.toNat < 128 := hlt
    unfold String.utf8EncodeChar at hb
    rw [if_pos (by omega)] at hb
    simp only [List.mem_singleton] at hb
    subst hb
    intro h
    have := congrArg UInt8.toNat h
    simp only [UInt8.toNat_ofNat', UInt8.toNat_zero] at this
    omega
  | chineseSimplified =>
    obtain ⟨ws, idx, hp, hw, henc⟩ := constructible_shape H m hm
    unfold Mnemonic.asBytes at hb
    rw [if_pos hl, List.mem_flatMap] at hb
    obtain ⟨c, hc, hb⟩ := hb
    rw [hp, ← spaced_eq_join] at hc
    rcases mem_spaced ws c hc with rfl | ⟨w, hw', hc'⟩
    · rintro rfl
      revert hb
      decide
    · have hmem := wordsAt_mem hw w hw'
      rw [hl, words_eq] at hmem
      obtain ⟨c', rfl, _⟩ := chinese_word hmem
      obtain rfl : c = c' := by simpa using hc'
      obtain ⟨k, hk, k1, k2, hkc⟩ := gb_of_word hmem
      have h0 := List.all_eq_true.mp gb_codes_low _ hk
      simp only [bne_iff_ne, ne_eq] at h0
      rw [hkc] at hb
      simp only [List.mem_cons, List.not_mem_nil, or_false] at hb
      rcases hb with rfl | rfl
      · intro h
        have := congrArg UInt8.toNat h
        simp only [UInt8.toNat_ofNat', UInt8.toNat_zero] at this
        omega
      · intro h
        have := congrArg UInt8.toNat h
        simp only [UInt8.toNat_ofNat', UInt8.toNat_zero] at this
        omega

/-- The digest of the first phrase, which is longer than a block of SHA-512, is the second phrase, up to zero bytes at the
end. -/
def DigestIsPhrase (H : Hashes) (m m' : Mnemonic) : Prop :=
  128 < m.asBytes.length ∧ ∃ z, sha512 H m.asBytes = m'.asBytes ++ List.replicate z 0

theorem key_mem {h : Bytes → Bytes} {k m : Bytes} (hk : k.length > 128) : k ∈ hmacHashes 128 h k m := by
  unfold hmacHashes
  simp [hk]

theorem same_key {H : Hashes} {m m' : Mnemonic} (hm : Constructible H m) (hm' : Constructible H m') (s s' : Bytes)
    (h : ∀ i < 128, (preparedKey (sha512 H) m.asBytes).getD i 0 = (preparedKey (sha512 H) m'.asBytes).getD i 0) :
    m.asBytes = m'.asBytes ∨
      Collides (sha512 H) (hmacHashes 128 (sha512 H) m.asBytes s) (hmacHashes 128 (sha512 H) m'.asBytes s') ∨
      DigestIsPhrase H m m' ∨ DigestIsPhrase H m' m := by
  have hz := phrase_no_zero H m hm
  have hz' := phrase_no_zero H m' hm'
  have h64 : ∀ b, (sha512 H b).length = 64 := fun b => (H.sha512 b).2
  unfold preparedKey at h
  by_cases hl : m.asBytes.length > 128 <;> by_cases hl' : m'.asBytes.length > 128
  · rw [if_pos hl, if_pos hl'] at h
    have e : sha512 H m.asBytes = sha512 H m'.asBytes := by
      refine List.ext_getElem (by rw [h64, h64]) fun i h1 h2 => ?_
      have := h i (by rw [h64] at h1; omega)
      rwa [List.getD_eq_getElem _ _ h1, List.getD_eq_getElem _ _ h2] at this
    by_cases hne : m.asBytes = m'.asBytes
    · exact .inl hne
    · exact .inr (.inl ⟨_, key_mem hl, _, key_mem hl', hne, e⟩)
  · rw [if_pos hl, if_neg hl'] at h
    exact .inr (.inr (.inl ⟨hl, zeros_of_getD hz' (by rw [h64]; decide) (by omega) fun i hi => (h i hi).symm⟩))
  · rw [if_neg hl, if_pos hl'] at h
    exact .inr (.inr (.inr ⟨hl', zeros_of_getD hz (by rw [h64]; decide) (by omega) h⟩))
  · rw [if_neg hl, if_neg hl'] at h
    obtain ⟨z, hz1⟩ := zeros_of_getD hz (by omega) (by omega) h
    exact .inl (eq_of_zeros hz' hz1).symm

theorem roundHashes_zero {h : Bytes → Bytes} {p s : Bytes} (j : Nat) :
    hmacHashes 128 h p (s ++ [0, 0, 0, 1]) ⊆ roundHashes h p s j := by
  induction j with
  | zero => exact fun _ h => h
  | succ j ih => exact fun b hb => List.mem_append_left _ (ih hb)

/-- **C111** The seed is the sum of 2048 rounds of PBKDF2.  If two wallets agree in one of them, they have the same mnemonic
and the same passphrase up to NFKD; or SHA-512 has the same digest for two different inputs that it is given in the rounds up
to that one; or the SHA-512 digest of one phrase is the other phrase. -/
theorem C111_rounds_separate (H : Hashes) (m m' : Mnemonic) (hm : Constructible H m) (hm' : Constructible H m')
    (pw pw' npw npw' salt salt' : Str) (hn : IsNfkd pw npw) (hn' : IsNfkd pw' npw')
    (hs : IsNfkd ("mnemonic".toList ++ pw) salt) (hs' : IsNfkd ("mnemonic".toList ++ pw') salt') :
    (Seed.new H m pw).bytes = pbkdf2T (hmac (sha512 H)) m.asBytes (utf8Of salt) 2047 ∧
    (Seed.new H m' pw').bytes = pbkdf2T (hmac (sha512 H)) m'.asBytes (utf8Of salt') 2047 ∧
    ∀ j, pbkdf2U (hmac (sha512 H)) m.asBytes (utf8Of salt) j = pbkdf2U (hmac (sha512 H)) m'.asBytes (utf8Of salt') j →
      (m = m' ∧ npw = npw') ∨
      Collides (sha512 H) (roundHashes (sha512 H) m.asBytes (utf8Of salt) j)
        (roundHashes (sha512 H) m'.asBytes (utf8Of salt') j) ∨
      DigestIsPhrase H m m' ∨ DigestIsPhrase H m' m := by
  obtain ⟨c1, c2, c3⟩ := C71_seed_inputs_separate H m m' hm hm' pw pw'
  have c1' := (C71_seed_inputs_separate H m' m hm' hm pw' pw).1
  refine ⟨c1 _ hs, c1' _ hs', fun j => ?_⟩
  induction j with
  | zero =>
    intro h
    rcases hmac_inj h with ⟨e1, e2⟩ | hc
    · rcases same_key hm hm' (utf8Of salt ++ [0, 0, 0, 1]) (utf8Of salt' ++ [0, 0, 0, 1]) e2 with h1 | h1
      · exact .inl ⟨c2.1 h1, (c3 _ _ _ _ hs hs' hn hn').1 (List.append_inj' e1 rfl).1⟩
      · exact .inr h1
    · exact .inr (.inl hc)
  | succ j ih =>
    intro h
    rcases hmac_inj h with ⟨e1, _⟩ | hc
    · refine (ih e1).imp_right (Or.imp_left fun h => ?_)
      exact h.mono (List.subset_append_left _ _) (List.subset_append_left _ _)
    · exact .inr (.inl (hc.mono (List.subset_append_right _ _) (List.subset_append_right _ _)))

/-- **C111** The lists of inputs are complete: the rounds depend on no other digest. -/
theorem C111_inputs_suffice (h h' : Bytes → Bytes) (p s : Bytes) (j : Nat) (e : ∀ b ∈ roundHashes h p s j, h' b = h b) :
    ∀ i ≤ j, pbkdf2U (hmac h') p s i = pbkdf2U (hmac h) p s i := by
  induction j with
  | zero =>
    intro i hi
    obtain rfl : i = 0 := by omega
    exact hmac_agree e
  | succ j ih =>
    have ih := ih fun b hb => e b (List.mem_append_left _ hb)
    intro i hi
    rcases Nat.lt_or_ge i (j + 1) with h1 | h1
    · exact ih i (by omega)
    · obtain rfl : i = j + 1 := by omega
      unfold pbkdf2U
      rw [ih j (by omega)]
      exact hmac_agree fun b hb => e b (List.mem_append_right _ hb)

-- two wallets that agree in the first round, for a constant SHA-512
example : ∃ m m', Constructible (constHash 1) m ∧ Constructible (constHash 1) m' ∧ m ≠ m' ∧
    (∃ salt, IsNfkd ("mnemonic".toList ++ []) salt ∧
      pbkdf2U (hmac (sha512 (constHash 1))) m.asBytes (utf8Of salt) 0 =
        pbkdf2U (hmac (sha512 (constHash 1))) m'.asBytes (utf8Of salt) 0) := by
  obtain ⟨_, _, h, _⟩ := fromEntropyUnchecked_spec (constHash 1) (List.replicate 16 0) .chineseSimplified (by decide)
  obtain ⟨_, _, h', _⟩ := fromEntropyUnchecked_spec (constHash 1) (List.replicate 16 0) .english (by decide)
  exact ⟨_, _, .fromEntropy _ _ _ (by decide) ((fromEntropy_ok_iff _ _ _ (by decide) _).mpr h),
    .fromEntropy _ _ _ (by decide) ((fromEntropy_ok_iff _ _ _ (by decide) _).mpr h'), by simp, _, isNfkd_iff.2 rfl, rfl⟩

-- the 2048 rounds hash 4096 inputs if the phrase has at most 128 bytes
example (h : Bytes → Bytes) (p s : Bytes) (hp : p.length ≤ 128) : (roundHashes h p s 2047).length = 4096 := by
  have key : ∀ j, (roundHashes h p s j).length = 2 * (j + 1) := by
    intro j
    have : ¬p.length > 128 := by omega
    induction j with
    | zero => simp [roundHashes, hmacHashes, this]
    | succ j ih => simp [roundHashes, hmacHashes, this, ih]; omega
  rw [key]

end Kms.Props
