import Verif.Proofs.Chance
import Verif.Props.Language
/-
C100: the distribution of fresh mnemonics, and the chance that arbitrary words pass for a phrase.
-/
namespace Kms.Props
open Spec Bip39
open scoped ENNReal

/-- An accepted phrase comes from an entropy. -/
theorem phrase_back (H : Hashes) (l : Language) (s : Str) (hs : Mnemonic.validate H s l = .ok ()) :
    ∃ e m, e.length ∈ entropyLengths ∧ Mnemonic.fromEntropy H e l = .ok m ∧ m.phrase = s ∧
      s.count ' ' + 1 = 3 * (e.length / 4) := by
  obtain ⟨m, hm, hp⟩ := (C10_validate_iff_verbatim H s l).mp hs
  obtain ⟨⟨m2, h2, h3⟩, _⟩ := C02_accepted_phrases_canonical H s l m hm
  have hlen : m.entropy.length ∈ entropyLengths := by
    obtain ⟨idx, _, henc, _⟩ := (fromPhrase_ok_iff H s l m).mp hm
    exact encodes_entropyLength henc
  obtain ⟨m3, h4, _, _, h5, _⟩ := phrase_of_entropy H l m.entropy hlen
  rw [h2] at h4
  simp only [Res.ok.injEq] at h4
  subst h4
  rw [h3, hp] at h5
  exact ⟨m.entropy, m2, hlen, h2, h3.trans hp, h5⟩

/-- A phrase comes from exactly one output of the random number generator. -/
theorem new_iff (H : Hashes) (t : MnemonicType) (l : Language) (s : Str) (hs : Mnemonic.validate H s l = .ok ())
    (hc : s.count ' ' + 1 = t.wordCount) :
    ∃ e : Bytes, e.length = t.entropyBits / 8 ∧ ∀ rng : (n : Nat) → ByteArr n,
      (∃ m, Mnemonic.new H rng t l = .ok m ∧ m.phrase = s) ↔ (rng (t.entropyBits / 8)).1 = e := by
  obtain ⟨e, m, hl, hm, hp, hcnt⟩ := phrase_back H l s hs
  have he : e.length = t.entropyBits / 8 := by
    simp only [entropyLengths, List.mem_cons, List.not_mem_nil, or_false] at hl
    rw [hcnt] at hc
    rcases hl with h | h | h | h | h <;> rw [h] at hc ⊢ <;> cases t <;> first | rfl | exact absurd hc (by decide)
  refine ⟨e, he, fun rng => ⟨?_, ?_⟩⟩
  · rintro ⟨m', h1, h2⟩
    obtain ⟨⟨m'', h3, h4, _, _, h5⟩, _⟩ := C07_new_valid_and_injective H t l rng
    rw [h1] at h3
    simp only [Res.ok.injEq] at h3
    subst h3
    obtain ⟨m3, h6, h7, _, _, _, h8⟩ := phrase_of_entropy H l e hl
    rw [hm] at h6
    simp only [Res.ok.injEq] at h6
    subst h6
    rw [h2, ← hp, h8] at h5
    simp only [Res.ok.injEq] at h5
    rw [← h4, ← h7, h5]
  · intro h
    refine ⟨m, ?_, hp⟩
    unfold Mnemonic.new
    rw [h]
    exact (fromEntropy_ok_iff H e l hl m).mp hm

/-- The text of what `new` returns. -/
def newText (H : Hashes) (t : MnemonicType) (l : Language) (rng : (n : Nat) → ByteArr n) : Res ErrorKind Str :=
  (Mnemonic.new H rng t l).map Mnemonic.phrase

theorem newText_iff (H : Hashes) (t : MnemonicType) (l : Language) (rng : (n : Nat) → ByteArr n) (s : Str) :
    newText H t l rng = .ok s ↔ ∃ m, Mnemonic.new H rng t l = .ok m ∧ m.phrase = s := by
  unfold newText
  cases Mnemonic.new H rng t l <;> simp

theorem entropy_pow (t : MnemonicType) : 8 * (t.entropyBits / 8) = t.entropyBits := by cases t <;> decide

theorem new_chance (H : Hashes) (t : MnemonicType) (l : Language) (R : PMF ((n : Nat) → ByteArr n))
    (hR : UniformBytes R (t.entropyBits / 8) (fun rng => (rng (t.entropyBits / 8)).1)) (s : Str)
    (hs : Mnemonic.validate H s l = .ok ()) (hc : s.count ' ' + 1 = t.wordCount) :
    chance R (fun rng => newText H t l rng = .ok s) = (2 ^ t.entropyBits : ℝ≥0∞)⁻¹ := by
  obtain ⟨e, he, h⟩ := new_iff H t l s hs hc
  rw [chance_congr R (fun rng => (newText_iff H t l rng s).trans (h rng)), hR e he, entropy_pow]

theorem count_pieces {s : Str} {ws : List Str} (h : Pieces s ws) : s.count ' ' + 1 = ws.length := by
  rw [← splitChar_length, pieces_iff.1 h]

/-- **C100** If the bytes of the random number generator are uniformly distributed then every phrase of the requested
number of words that `validate` accepts is returned by `Mnemonic::new` with the same probability `2^-bits`, and only such
phrases are returned. -/
theorem C100_fresh_phrases_uniform (H : Hashes) (t : MnemonicType) (l : Language) (R : PMF ((n : Nat) → ByteArr n))
    (hR : UniformBytes R (t.entropyBits / 8) (fun rng => (rng (t.entropyBits / 8)).1)) :
    (∀ s ws, Mnemonic.validate H s l = .ok () → Pieces s ws → ws.length = t.wordCount →
      chance R (fun rng => ∃ m, Mnemonic.new H rng t l = .ok m ∧ m.phrase = s) = (2 ^ t.entropyBits : ℝ≥0∞)⁻¹) ∧
    chance R (fun rng => ∃ m ws, Mnemonic.new H rng t l = .ok m ∧ Mnemonic.validate H m.phrase l = .ok () ∧
      Pieces m.phrase ws ∧ ws.length = t.wordCount) = 1 := by
  refine ⟨fun s ws hs hp hn => ?_, chance_true R fun rng => ?_⟩
  · rw [← new_chance H t l R hR s hs ((count_pieces hp).trans hn)]
    exact chance_congr R fun rng => (newText_iff H t l rng s).symm
  · obtain ⟨⟨m, h1, _, ⟨ws, h2, h3, _⟩, h4, _⟩, _⟩ := C07_new_valid_and_injective H t l rng
    exact ⟨m, ws, h1, h4, h2, h3⟩

/-- There are such generators. -/
theorem uniform_rng (t : MnemonicType) : ∃ R : PMF ((n : Nat) → ByteArr n),
    UniformBytes R (t.entropyBits / 8) (fun rng => (rng (t.entropyBits / 8)).1) := by
  classical
  obtain ⟨P, hP⟩ := uniform_exists (t.entropyBits / 8)
  refine ⟨P.map (fun b n => if h : t.entropyBits / 8 = n then h ▸ b else ⟨List.replicate n 0, by simp⟩), ?_⟩
  intro b hb
  rw [chance_map]
  simp only [dite_true]
  exact hP b hb

-- such a generator gives every phrase of 24 words with probability 2^-256
example (H : Hashes) : ∃ R : PMF ((n : Nat) → ByteArr n), ∀ s ws, Mnemonic.validate H s .english = .ok () → Pieces s ws →
    ws.length = 24 → chance R (fun rng => ∃ m, Mnemonic.new H rng .words24 .english = .ok m ∧ m.phrase = s) = (2 ^ 256 : ℝ≥0∞)⁻¹ := by
  obtain ⟨R, hR⟩ := uniform_rng .words24
  exact ⟨R, (C100_fresh_phrases_uniform H .words24 .english R hR).1⟩

theorem pieces_spaced (l : Language) {ws : List Str} (hne : ws ≠ []) (h : ∀ w ∈ ws, w ∈ words l) : Pieces (spaced ws) ws :=
  ⟨hne, rfl, fun w hw => noWs_no_space (wordlist_clean l w (by rw [words_eq]; exact h w hw)).2⟩

/-- **C100** All words of such a phrase but the last are independent and uniform: any given `n − 1` words of the list are
its first words with probability `2048^-(n−1)`. -/
theorem C100_fresh_words_uniform (H : Hashes) (t : MnemonicType) (l : Language) (R : PMF ((n : Nat) → ByteArr n))
    (hR : UniformBytes R (t.entropyBits / 8) (fun rng => (rng (t.entropyBits / 8)).1)) (ws : List Str)
    (hmem : ∀ w ∈ ws, w ∈ words l) (hn : ws.length + 1 = t.wordCount) :
    chance R (fun rng => ∃ m w, Mnemonic.new H rng t l = .ok m ∧ Pieces m.phrase (ws ++ [w])) =
      (2048 ^ ws.length : ℝ≥0∞)⁻¹ := by
  classical
  have hsz : ws.length + 1 ∈ sizes := by rw [hn]; cases t <;> decide
  have hcard := C18_checksum_strength H l ws hmem hsz
  set good := (words l).filter (fun w => (Mnemonic.validate H (spaced (ws ++ [w])) l).isOk) with hgood
  have hnd : good.Nodup := (by rw [← words_eq]; exact wordlist_nodup l : (words l).Nodup).filter _
  have hin : ∀ w ∈ words l, ∀ v ∈ ws ++ [w], v ∈ words l := by
    intro w hw v hv
    rw [List.mem_append, List.mem_singleton] at hv
    rcases hv with hv | rfl
    exacts [hmem v hv, hw]
  have hpc : ∀ w ∈ words l, Pieces (spaced (ws ++ [w])) (ws ++ [w]) := fun w hw => pieces_spaced l (by simp) (hin w hw)
  have hok : ∀ w ∈ good, w ∈ words l ∧ Mnemonic.validate H (spaced (ws ++ [w])) l = .ok () := by
    intro w hw
    rw [hgood, List.mem_filter] at hw
    refine ⟨hw.1, ?_⟩
    revert hw
    cases Mnemonic.validate H (spaced (ws ++ [w])) l <;> simp [Res.isOk]
  set S : Finset (Res ErrorKind Str) := good.toFinset.image (fun w => .ok (spaced (ws ++ [w])))
  have hS : S.card = 2 ^ (11 - (ws.length + 1) / 3) := by
    rw [Finset.card_image_of_injOn, List.toFinset_card_of_nodup hnd, hcard]
    intro a ha b hb hab
    simp only [Res.ok.injEq] at hab
    have h1 := hpc a (hok a (by simpa using ha)).1
    have h2 := hpc b (hok b (by simpa using hb)).1
    rw [hab] at h1
    have := (pieces_iff.1 h1).symm.trans (pieces_iff.1 h2)
    simpa using this
  rw [chance_congr R (B := fun rng => newText H t l rng ∈ S), chance_finset]
  · rw [Finset.sum_congr rfl (g := fun _ => (2 ^ t.entropyBits : ℝ≥0∞)⁻¹), Finset.sum_const, hS, nsmul_eq_mul]
    · have key : ∀ a b c : Nat, 11 * b = c → a + 11 * b = c + a →
          ((2 ^ a : Nat) : ℝ≥0∞) * (2 ^ (a + 11 * b) : ℝ≥0∞)⁻¹ = (2048 ^ b : ℝ≥0∞)⁻¹ := by
        intro a b c _ _
        rw [show (2048 : ℝ≥0∞) = 2 ^ 11 by norm_num, ← pow_mul, pow_add, Nat.cast_pow, Nat.cast_ofNat,
          ENNReal.mul_inv (by simp) (by simp), ← mul_assoc, ENNReal.mul_inv_cancel (by simp) (by simp), one_mul]
      have hb : t.entropyBits = (11 - (ws.length + 1) / 3) + 11 * ws.length := by
        have : ws.length = t.wordCount - 1 := by omega
        rw [hn, this]
        cases t <;> decide
      rw [hb]
      exact key _ _ _ rfl (Nat.add_comm _ _)
    · intro r hr
      obtain ⟨w, hw, rfl⟩ := Finset.mem_image.1 hr
      have hw := hok w (by simpa using hw)
      exact new_chance H t l R hR _ hw.2 ((count_pieces (hpc w hw.1)).trans (by simpa using hn))
  · intro rng
    rw [Finset.mem_image]
    obtain ⟨⟨m, h1, _, ⟨vs, h2, _, h3⟩, h4, _⟩, _⟩ := C07_new_valid_and_injective H t l rng
    have ht : newText H t l rng = .ok m.phrase := (newText_iff ..).2 ⟨m, h1, rfl⟩
    constructor
    · rintro ⟨m', w, h5, h6⟩
      rw [h1] at h5
      cases h5
      have hv : vs = ws ++ [w] := (pieces_iff.1 h2).symm.trans (pieces_iff.1 h6)
      have hw : w ∈ words l := h3 w (by rw [hv]; simp)
      refine ⟨w, ?_, by rw [ht, h6.2.1]⟩
      rw [List.mem_toFinset, hgood, List.mem_filter]
      refine ⟨hw, ?_⟩
      rw [h6.2.1, h4]
      rfl
    · rintro ⟨w, hw, h5⟩
      rw [ht] at h5
      simp only [Res.ok.injEq] at h5
      exact ⟨m, w, h1, by rw [← h5]; exact hpc w (hok w (by simpa using hw)).1⟩

-- eleven times the word "zoo" has probability 2^-121
example (H : Hashes) : ∃ R : PMF ((n : Nat) → ByteArr n), chance R (fun rng => ∃ m w, Mnemonic.new H rng .words12 .english = .ok m ∧
    Pieces m.phrase (List.replicate 11 "zoo".toList ++ [w])) = (2048 ^ 11 : ℝ≥0∞)⁻¹ := by
  obtain ⟨R, hR⟩ := uniform_rng .words12
  refine ⟨R, C100_fresh_words_uniform H .words12 .english R hR (List.replicate 11 "zoo".toList) ?_ (by decide)⟩
  intro w hw
  rw [(List.mem_replicate.1 hw).2]
  decide +kernel

/-- **C100** `n` words drawn uniformly from the list are a phrase that `validate` accepts with probability
`2^-(n/3)`: 1/16 for 12 words, 1/256 for 24 words. -/
theorem C100_random_words (H : Hashes) (l : Language) (n : Nat) (hn : n ∈ sizes) (α : Type) (P : PMF α) (f : α → List Str)
    (hf : ∀ a, (f a).length = n ∧ ∀ w ∈ f a, w ∈ words l)
    (hP : ∀ ws, ws.length = n → (∀ w ∈ ws, w ∈ words l) → chance P (fun a => f a = ws) = (2048 ^ n : ℝ≥0∞)⁻¹) :
    chance P (fun a => Mnemonic.validate H (spaced (f a)) l = .ok ()) = (2 ^ (n / 3) : ℝ≥0∞)⁻¹ := by
  classical
  have hcard := (C68_phrase_count H l).1 n hn
  have hpos : n ≠ 0 := by rintro rfl; exact absurd hn (by decide)
  have hne : ∀ ws : List Str, ws.length = n → ws ≠ [] := by rintro ws h rfl; exact hpos h.symm
  set T := {s : Str | Mnemonic.validate H s l = .ok () ∧ s.count ' ' + 1 = n}
  have hfin : T.Finite := Set.finite_of_ncard_ne_zero (by rw [hcard]; positivity)
  set S : Finset (List Str) := hfin.toFinset.image (splitChar ' ')
  have hS : S.card = 2 ^ (32 * n / 3) := by
    rw [Finset.card_image_of_injOn, ← Set.ncard_eq_toFinset_card _ hfin, hcard]
    intro a _ b _ hab
    have h1 := join_splitChar ' ' a
    have h2 := join_splitChar ' ' b
    rw [← h1, ← h2]
    exact congrArg _ hab
  have hmem : ∀ ws, ws ∈ S ↔ ws.length = n ∧ (∀ w ∈ ws, w ∈ words l) ∧ Mnemonic.validate H (spaced ws) l = .ok () := by
    intro ws
    rw [Finset.mem_image]
    constructor
    · rintro ⟨s, hs, rfl⟩
      rw [Set.Finite.mem_toFinset] at hs
      obtain ⟨idx, e, hw, _⟩ := (validate_ok_iff H s l).mp hs.1
      refine ⟨by rw [splitChar_length]; exact hs.2, ?_, by rw [spaced_eq_join, join_splitChar]; exact hs.1⟩
      rw [← words_eq]
      exact wordsAt_mem hw
    · rintro ⟨h1, h2, h3⟩
      have hp := pieces_spaced l (hne ws h1) h2
      exact ⟨spaced ws, hfin.mem_toFinset.2 ⟨h3, (count_pieces hp).trans h1⟩, pieces_iff.1 hp⟩
  rw [chance_congr P (B := fun a => f a ∈ S), chance_finset]
  · rw [Finset.sum_congr rfl (g := fun _ => (2048 ^ n : ℝ≥0∞)⁻¹), Finset.sum_const, hS, nsmul_eq_mul]
    · have hb : 11 * n = 32 * n / 3 + n / 3 := by
        simp only [sizes, List.mem_cons, List.not_mem_nil, or_false] at hn
        omega
      rw [show (2048 : ℝ≥0∞) = 2 ^ 11 by norm_num, ← pow_mul, hb, pow_add, Nat.cast_pow, Nat.cast_ofNat,
        ENNReal.mul_inv (by simp) (by simp), ← mul_assoc, ENNReal.mul_inv_cancel (by simp) (by simp), one_mul]
    · intro ws hws
      have := (hmem ws).1 hws
      exact hP ws this.1 this.2.1
  · intro a
    rw [hmem]
    exact ⟨fun h => ⟨(hf a).1, (hf a).2, h⟩, fun h => h.2.2⟩

-- such draws exist: a uniform choice of 12 word numbers
example (H : Hashes) : ∃ (P : PMF (Fin 12 → Fin 2048)) (f : (Fin 12 → Fin 2048) → List Str),
    chance P (fun a => Mnemonic.validate H (spaced (f a)) .english = .ok ()) = (2 ^ 4 : ℝ≥0∞)⁻¹ := by
  have hlen : (words .english).length = 2048 := (C11_wordlist_bijection .english).1
  have hnd : (words .english).Nodup := (C11_wordlist_bijection .english).2.1
  let f : (Fin 12 → Fin 2048) → List Str := fun a => List.ofFn fun i => (words .english)[a i]
  refine ⟨PMF.uniformOfFintype _, f, C100_random_words H .english 12 (by decide) _ _ f ?_ ?_⟩
  · intro a
    refine ⟨by simp [f], fun w hw => ?_⟩
    obtain ⟨i, rfl⟩ := (List.mem_ofFn' _ _).1 hw
    exact List.getElem_mem _
  · intro ws hws hmem
    have hi : ∀ i : Fin 12, ∃ j : Fin 2048, (words .english)[j] = ws[i] := by
      intro i
      obtain ⟨j, hj, h⟩ := List.getElem_of_mem (hmem ws[i] (List.getElem_mem _))
      exact ⟨⟨j, by omega⟩, h⟩
    choose a ha using hi
    have hiff : ∀ b, f b = ws ↔ b = a := by
      intro b
      constructor
      · intro h
        funext i
        have : (words .english)[b i] = ws[i] := by
          simp only [← h, f, Fin.getElem_fin, List.getElem_ofFn]
        rw [← ha i] at this
        exact Fin.ext ((List.Nodup.getElem_inj_iff hnd).1 this)
      · rintro rfl
        apply List.ext_getElem (by simp [f, hws])
        intro i h1 h2
        have := ha ⟨i, by simpa [f] using h1⟩
        simp only [f, List.getElem_ofFn]
        exact this
    rw [chance_congr _ hiff]
    unfold chance
    rw [Set.ofPred_eq_eq_singleton, PMF.toOuterMeasure_apply_singleton, PMF.uniformOfFintype_apply]
    simp
    norm_num

end Kms.Props
