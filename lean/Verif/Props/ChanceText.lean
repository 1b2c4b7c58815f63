import Verif.Proofs.Chance
import Verif.Props.Chance
import Verif.Props.ExtendedKey
/-
C106: how likely damaged text is to be accepted.
-/
namespace Kms.Props
open Kms.Spec Bip39 Bip32
open scoped ENNReal

/-- The bytes whose bits start with given bits. -/
theorem byte_prefix_count (c : List Bool) (hc : c.length ≤ 8) :
    {x : UInt8 | (bitsOfNat 8 x.toNat).take c.length = c}.ncard = 2 ^ (8 - c.length) := by
  have hb : {t : List Bool | t.length = 8 - c.length}.ncard = 2 ^ (8 - c.length) := by
    rw [← Nat.card_coe_set_eq]
    show Nat.card (List.Vector Bool (8 - c.length)) = _
    rw [Nat.card_eq_fintype_card, card_vector, Fintype.card_bool]
  have hx : ∀ x : UInt8, natOfBits (bitsOfNat 8 x.toNat) = x.toNat := fun x => by
    rw [natOfBits_bitsOfNat]
    exact Nat.mod_eq_of_lt x.toNat_lt
  rw [← hb]
  refine Set.ncard_congr (fun x _ => (bitsOfNat 8 x.toNat).drop c.length) ?_ ?_ ?_
  · intro x _
    show ((bitsOfNat 8 x.toNat).drop c.length).length = _
    rw [List.length_drop, bitsOfNat_length]
  · intro x y (h1 : _ = _) (h2 : _ = _) h
    have e : bitsOfNat 8 x.toNat = bitsOfNat 8 y.toNat := by
      rw [← List.take_append_drop c.length (bitsOfNat 8 x.toNat), ← List.take_append_drop c.length (bitsOfNat 8 y.toNat), h1, h2, h]
    have := congrArg natOfBits e
    rw [hx, hx] at this
    exact UInt8.toNat_inj.1 this
  · intro t (ht : _ = _)
    have hl : (c ++ t).length = 8 := by rw [List.length_append]; omega
    have hv : bitsOfNat 8 (UInt8.ofNat (natOfBits (c ++ t))).toNat = c ++ t := by
      rw [UInt8.toNat_ofNat', bitsOfNat_mod, ← hl, bitsOfNat_natOfBits]
    refine ⟨UInt8.ofNat (natOfBits (c ++ t)), ?_, ?_⟩
    · show List.take _ _ = _
      rw [hv, List.take_left]
    · show List.drop _ _ = _
      rw [hv, List.drop_left]

/-- Byte strings that start with given bytes. -/
theorem bytes_prefix_count (c : Bytes) (m : Nat) : {d : Bytes | d.length = c.length + m ∧ d.take c.length = c}.ncard = 256 ^ m := by
  rw [← ncard_bytes]
  symm
  refine Set.ncard_congr (fun d _ => c ++ d) ?_ ?_ ?_
  · intro d hd
    refine ⟨?_, by simp⟩
    rw [List.length_append, show d.length = m from hd]
  · intro a b _ _ h
    exact List.append_cancel_left h
  · rintro b ⟨h1, h2⟩
    refine ⟨b.drop c.length, ?_, ?_⟩
    · show (b.drop c.length).length = m
      rw [List.length_drop]; omega
    · show c ++ b.drop c.length = b
      conv_rhs => rw [← List.take_append_drop c.length b, h2]

/-- Byte strings whose bits start with at most eight given bits. -/
theorem bits_prefix_count (c : List Bool) (hc : c.length ≤ 8) (m : Nat) :
    {d : Bytes | d.length = m + 1 ∧ (bitsOfBytes d).take c.length = c}.ncard = 2 ^ (8 - c.length) * 256 ^ m := by
  rw [← byte_prefix_count c hc, ← ncard_bytes, ← Set.ncard_prod]
  symm
  refine Set.ncard_congr (fun d _ => d.1 :: d.2) ?_ ?_ ?_
  · rintro ⟨x, d⟩ ⟨h1, h2⟩
    refine ⟨congrArg (· + 1) h2, ?_⟩
    rw [bitsOfBytes_cons, List.take_append_of_le_length (by simpa using hc)]
    exact h1
  · rintro ⟨x, d⟩ ⟨y, e⟩ _ _ h
    simpa using h
  · rintro b ⟨h1, h2⟩
    match b, h1, h2 with
    | x :: d, h1, h2 =>
      rw [bitsOfBytes_cons, List.take_append_of_le_length (by simpa using hc)] at h2
      exact ⟨(x, d), ⟨h2, by simpa using h1⟩, rfl⟩

theorem pow_split (a b : Nat) (c : ℕ) (h : a + b = c) : ((2 ^ a : Nat) : ℝ≥0∞) * (2 ^ c : ℝ≥0∞)⁻¹ = (2 ^ b : ℝ≥0∞)⁻¹ := by
  rw [← h, pow_add, Nat.cast_pow, Nat.cast_ofNat, ENNReal.mul_inv (by simp) (by simp), ← mul_assoc,
    ENNReal.mul_inv_cancel (by simp) (by simp), one_mul]

/-- **C106** Take any text of `n` words of a list, `n` being 12, 15, 18, 21 or 24, and the entropy `e` its first `32n/3`
bits spell.  If the SHA-256 of `e` is uniformly distributed then `validate` accepts the text with probability exactly
`2^-(n/3)`.  Two texts of the same entropy are never both accepted. -/
theorem C106_damaged_phrase (l : Language) (ws : List Str) (idx : List Nat) (hw : WordsAt (words l) ws idx) (hn : ws.length ∈ sizes)
    (e : Bytes) (he : bitsOfBytes e = (idx.flatMap (bitsOfNat 11)).take (32 * (ws.length / 3))) :
    (∀ R : PMF Hashes, UniformBytes R 32 (fun H => (H.sha256 e).1) →
      chance R (fun H => Mnemonic.validate H (spaced ws) l = .ok ()) = (2 ^ (ws.length / 3) : ℝ≥0∞)⁻¹) ∧
    (∀ ws' idx', WordsAt (words l) ws' idx' → ws'.length = ws.length →
      bitsOfBytes e = (idx'.flatMap (bitsOfNat 11)).take (32 * (ws.length / 3)) →
      ∀ H, Mnemonic.validate H (spaced ws) l = .ok () → Mnemonic.validate H (spaced ws') l = .ok () → ws' = ws) := by
  have hiff : ∀ H (vs : List Str) (jdx : List Nat), WordsAt (words l) vs jdx → vs.length = ws.length →
      bitsOfBytes e = (jdx.flatMap (bitsOfNat 11)).take (32 * (ws.length / 3)) →
      (Mnemonic.validate H (spaced vs) l = .ok () ↔
        (bitsOfBytes (H.sha256 e).1).take (ws.length / 3) = (jdx.flatMap (bitsOfNat 11)).drop (32 * (ws.length / 3))) := by
    intro H vs jdx hv hvl hve
    rw [← words_eq] at hv
    have hjl := wordsAt_length hv
    have hne : vs ≠ [] := ne_nil_of_sizes (by rw [hvl]; exact hn)
    have hsp : spaced vs = join [' '] vs := spaced_eq_join vs
    have hs3 : 11 * ws.length = 32 * (ws.length / 3) + ws.length / 3 := by
      revert hn
      generalize ws.length = k
      intro hn
      simp only [sizes, List.mem_cons, List.not_mem_nil, or_false] at hn
      omega
    have hfl : (jdx.flatMap (bitsOfNat 11)).length = 11 * ws.length := by rw [flatMap_bits_length, ← hjl, hvl]
    constructor
    · intro h
      rw [validate_ok_iff, hsp, wordsAt_split l vs jdx hv hne] at h
      obtain ⟨kdx, f, hk, hf⟩ := h
      cases wordsAt_idx_unique hk hv
      obtain ⟨_, _, h3⟩ := hf
      rw [← hjl, hvl] at h3
      have hlen : 8 * f.length = 32 * (ws.length / 3) := by
        have := congrArg List.length h3
        rw [hfl, List.length_append, bitsOfBytes_length, List.length_take, bitsOfBytes_length, sha, (H.sha256 f).2] at this
        have h8 : ws.length / 3 ≤ 8 * 32 := by
          have : ws.length ≤ 24 := by
            revert hn
            generalize ws.length = k
            intro hn
            simp only [sizes, List.mem_cons, List.not_mem_nil, or_false] at hn
            omega
          omega
        omega
      have hfe : f = e := by
        apply bitsOfBytes_inj
        rw [hve, h3, List.take_append_of_le_length (by rw [bitsOfBytes_length]; omega), List.take_of_length_le (by rw [bitsOfBytes_length]; omega)]
      subst hfe
      rw [h3, ← hlen, ← bitsOfBytes_length, List.drop_left]
      rfl
    · intro h
      rw [hsp]
      refine (words_validate H l vs jdx e hv ⟨by rw [← hjl, hvl]; exact hn, wordsAt_lt hv, ?_⟩).1
      rw [← hjl, hvl]
      show _ = bitsOfBytes e ++ List.take _ (bitsOfBytes (H.sha256 e).1)
      rw [h, hve, List.take_append_drop]
  refine ⟨fun R hR => ?_, fun ws' idx' hw' hl' he' H h h' => ?_⟩
  · set c := (idx.flatMap (bitsOfNat 11)).drop (32 * (ws.length / 3)) with hc
    have hs3 : 11 * ws.length = 32 * (ws.length / 3) + ws.length / 3 ∧ ws.length / 3 ≤ 8 := by
      revert hn
      generalize ws.length = k
      intro hn
      simp only [sizes, List.mem_cons, List.not_mem_nil, or_false] at hn
      omega
    have hcl : c.length = ws.length / 3 := by
      rw [hc, List.length_drop, flatMap_bits_length, ← wordsAt_length hw]
      omega
    rw [chance_congr R (fun H => hiff H ws idx hw rfl he),
      uniform_chance hR (fun H => (H.sha256 e).2) (fun d => (bitsOfBytes d).take (ws.length / 3) = c), ← hcl,
      bits_prefix_count c (by omega) 31, show (256 : Nat) = 2 ^ 8 by rfl, ← pow_mul, ← pow_add]
    exact pow_split _ _ _ (by omega)
  · have h1 := (hiff H ws idx hw rfl he).1 h
    have h2 := (hiff H ws' idx' hw' hl' he').1 h'
    have hidx : idx'.flatMap (bitsOfNat 11) = idx.flatMap (bitsOfNat 11) := by
      rw [← List.take_append_drop (32 * (ws.length / 3)) (idx'.flatMap _), ← List.take_append_drop (32 * (ws.length / 3)) (idx.flatMap _),
        ← he, ← he', ← h1, ← h2]
    rw [← words_eq] at hw hw'
    have hi : idx' = idx := flatMap_bits_inj _ _ (wordsAt_lt hw') (wordsAt_lt hw) hidx
    subst hi
    exact wordsAt_words_unique hw' hw

/-- A hash function family whose SHA-256 values are uniform. -/
theorem uniform_sha256 : ∃ R : PMF Hashes, ∀ b : Hashes → Bytes, UniformBytes R 32 (fun H => (H.sha256 (b H)).1) := by
  obtain ⟨P, hP⟩ := uniform_exists 32
  refine ⟨P.map (fun b => ⟨fun _ => b, fun _ => zeroArr 64, fun _ => zeroArr 20⟩), fun b d hd => ?_⟩
  rw [chance_map]
  exact hP d hd

-- "abandon" twelve times spells sixteen zero bytes: one in sixteen hash functions makes it a valid phrase
example : ∃ R : PMF Hashes,
    chance R (fun H => Mnemonic.validate H (spaced (List.replicate 12 "abandon".toList)) .english = .ok ()) = (2 ^ 4 : ℝ≥0∞)⁻¹ := by
  obtain ⟨R, hR⟩ := uniform_sha256
  exact ⟨R, (C106_damaged_phrase .english (List.replicate 12 "abandon".toList) (List.replicate 12 0) (by unfold WordsAt; decide +kernel) (by decide)
    (List.replicate 16 0) (by decide)).1 R (hR _)⟩

/-- **C106** Take any text that is the Base58 text of 82 bytes, 78 of payload and 4 of checksum, and begins with four
letters.  If the double SHA-256 of the payload is uniformly distributed then `ExtendedKey::from_str` accepts the text with
probability exactly `2^-32`. -/
theorem C106_damaged_key (s : Str) (b c : Bytes) (hs : Base58 s (b ++ c)) (hb : b.length = 78) (hc : c.length = 4)
    (hl : ∀ x ∈ s.take 4, Letter x) (R : PMF Hashes) (hR : UniformBytes R 32 (fun H => (H.sha256 (H.sha256 b).1).1)) :
    chance R (fun H => ∃ k, ExtendedKey.fromStr H s = .ok k) = (2 ^ 32 : ℝ≥0∞)⁻¹ := by
  have hiff : ∀ H, (∃ k, ExtendedKey.fromStr H s = .ok k) ↔ (H.sha256 (H.sha256 b).1).1.take 4 = c := by
    intro H
    rw [(C43_from_str_exact H s).1]
    constructor
    · rintro ⟨⟨b', hb', h⟩, _⟩
      have := Base58.base58_bytes_unique h hs
      obtain ⟨e1, e2⟩ := List.append_inj this (by rw [hb', hb])
      subst e1
      exact e2
    · intro h
      exact ⟨⟨b, hb, show Base58 s (b ++ List.take 4 (H.sha256 (H.sha256 b).1).1) from h ▸ hs⟩, hl⟩
  rw [chance_congr R hiff, uniform_chance hR (fun H => (H.sha256 _).2) (fun d => d.take 4 = c)]
  have := bytes_prefix_count c 28
  rw [hc] at this
  rw [this, show (256 : Nat) = 2 ^ 8 by rfl, ← pow_mul]
  exact pow_split _ _ _ rfl

-- the public key of BIP32's first test vector: for one hash function in 2^32 its text is accepted
example : ∃ R : PMF Hashes, chance R (fun H => ∃ k, ExtendedKey.fromStr H
    "xpub661MyMwAqRbcFtXgS5sYJABqqG9YLmC4Q1Rdap9gSE8NqtwybGhePY2gZ29ESFjqJoCu1Rupje8YtGqsefD265TMg7usUDFdp6W1EGMcet8".toList = .ok k) =
      (2 ^ 32 : ℝ≥0∞)⁻¹ := by
  obtain ⟨R, hR⟩ := uniform_sha256
  have h : (ExtendedKey.fromStr Real.hashes
    "xpub661MyMwAqRbcFtXgS5sYJABqqG9YLmC4Q1Rdap9gSE8NqtwybGhePY2gZ29ESFjqJoCu1Rupje8YtGqsefD265TMg7usUDFdp6W1EGMcet8".toList).isOk
      = true := by decide +kernel
  revert h
  generalize "xpub661MyMwAqRbcFtXgS5sYJABqqG9YLmC4Q1Rdap9gSE8NqtwybGhePY2gZ29ESFjqJoCu1Rupje8YtGqsefD265TMg7usUDFdp6W1EGMcet8".toList = s
  intro h
  have h' : ∃ k, ExtendedKey.fromStr Real.hashes s = .ok k := by
    revert h
    cases ExtendedKey.fromStr Real.hashes s <;> simp [Res.isOk]
  obtain ⟨⟨b, hb, hs⟩, hl⟩ := (C43_from_str_exact Real.hashes s).1.1 h'
  exact ⟨R, C106_damaged_key s b _ hs hb (by rw [List.length_take, sha256, (Real.hashes.sha256 _).2]; rfl) hl R (hR _)⟩

end Kms.Props
