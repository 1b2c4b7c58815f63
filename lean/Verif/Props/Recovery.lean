import Verif.Props.ChanceText
/-
C125, C126: recovering a phrase of which some is lost, and guessing or repeating a fresh one.
-/
namespace Kms.Props
open Kms.Spec Bip39
open scoped ENNReal

/-- Lists of `j` words that complete `ws` to a phrase. -/
def Completes (H : Hashes) (l : Language) (ws : List Str) (j : Nat) : Set (List Str) :=
  {ts | ts.length = j ∧ (∀ t ∈ ts, t ∈ words l) ∧ Mnemonic.validate H (spaced (ws ++ ts)) l = .ok ()}

theorem completes_one (H : Hashes) (l : Language) (ws : List Str) (hmem : ∀ w ∈ ws, w ∈ words l) (hn : ws.length + 1 ∈ sizes) :
    (Completes H l ws 1).ncard = 2 ^ (11 - (ws.length + 1) / 3) := by
  classical
  rw [← C18_checksum_strength H l ws hmem hn]
  set good := (words l).filter (fun w => (Mnemonic.validate H (spaced (ws ++ [w])) l).isOk) with hgood
  have hnd : good.Nodup := (by rw [← words_eq]; exact wordlist_nodup l : (words l).Nodup).filter _
  rw [← List.toFinset_card_of_nodup hnd, ← Set.ncard_coe_finset]
  symm
  refine Set.ncard_congr (fun w _ => [w]) ?_ ?_ ?_
  · intro w hw
    simp only [List.coe_toFinset, Set.mem_ofPred_eq, hgood, List.mem_filter] at hw
    refine ⟨rfl, by simpa using hw.1, ?_⟩
    revert hw
    cases Mnemonic.validate H (spaced (ws ++ [w])) l <;> simp [Res.isOk]
  · intro a b _ _ h
    simpa using h
  · rintro ts ⟨h1, h2, h3⟩
    match ts, h1 with
    | [w], _ =>
      refine ⟨w, ?_, rfl⟩
      simp only [List.coe_toFinset, Set.mem_ofPred_eq, hgood, List.mem_filter, h3]
      exact ⟨h2 w (by simp), rfl⟩

theorem completes_succ (H : Hashes) (l : Language) (ws : List Str) (j N : Nat)
    (h : ∀ w ∈ words l, (Completes H l (ws ++ [w]) j).ncard = N) (hN : N ≠ 0) :
    (Completes H l ws (j + 1)).ncard = 2048 * N := by
  classical
  have hlen : (words l).length = 2048 := (C11_wordlist_bijection l).1
  have hnd : (words l).Nodup := (C11_wordlist_bijection l).2.1
  have hfin : ∀ w ∈ words l, (Completes H l (ws ++ [w]) j).Finite := fun w hw =>
    Set.finite_of_ncard_ne_zero (by rw [h w hw]; exact hN)
  have heq : Completes H l ws (j + 1) =
      ((words l).toFinset.attach.biUnion fun w =>
        (hfin w.1 (List.mem_toFinset.1 w.2)).toFinset.image (fun ts => w.1 :: ts) : Finset (List Str)) := by
    ext ts
    simp only [Finset.coe_biUnion, Set.mem_iUnion, Finset.mem_coe, Finset.mem_image, Set.Finite.mem_toFinset, Finset.mem_attach,
      true_and, Subtype.exists, List.mem_toFinset, exists_prop]
    constructor
    · rintro ⟨h1, h2, h3⟩
      match ts, h1 with
      | w :: ts, h1 =>
        refine ⟨w, h2 w (by simp), ts, ⟨by simpa using h1, fun t ht => h2 t (by simp [ht]), ?_⟩, rfl⟩
        rw [List.append_assoc]
        exact h3
    · rintro ⟨w, hw, ts, ⟨h1, h2, h3⟩, rfl⟩
      refine ⟨by simp [h1], ?_, ?_⟩
      · intro t ht
        rcases List.mem_cons.1 ht with rfl | ht
        exacts [hw, h2 t ht]
      · rw [List.append_assoc] at h3
        exact h3
  rw [heq, Set.ncard_coe_finset, Finset.card_biUnion]
  · rw [Finset.sum_congr rfl (g := fun _ => N), Finset.sum_const, Finset.card_attach, List.toFinset_card_of_nodup hnd, hlen]
    · rfl
    · intro w _
      rw [Finset.card_image_of_injective _ (fun a b hab => by simpa using hab), ← Set.ncard_eq_toFinset_card _ _]
      exact h w.1 (List.mem_toFinset.1 w.2)
  · intro a _ b _ hab
    rw [Function.onFun, Finset.disjoint_left]
    intro ts h1 h2
    obtain ⟨x, _, rfl⟩ := Finset.mem_image.1 h1
    obtain ⟨y, _, hy⟩ := Finset.mem_image.1 h2
    simp only [List.cons.injEq] at hy
    exact hab (Subtype.ext hy.1.symm)

/-- **C125** Of a phrase of `n` words the last `j + 1` are lost.  Whatever the words that are left, exactly
`2048^j · 2^(11 − n/3)` ways to fill in words of the list give a phrase that `validate` accepts. -/
theorem C125_lost_words (H : Hashes) (l : Language) (n j : Nat) (hn : n ∈ sizes) (ws : List Str)
    (hmem : ∀ w ∈ ws, w ∈ words l) (hj : ws.length + (j + 1) = n) :
    {ts : List Str | ts.length = j + 1 ∧ (∀ t ∈ ts, t ∈ words l) ∧
      Mnemonic.validate H (spaced (ws ++ ts)) l = .ok ()}.ncard = 2048 ^ j * 2 ^ (11 - n / 3) := by
  show (Completes H l ws (j + 1)).ncard = _
  induction j generalizing ws with
  | zero =>
    rw [completes_one H l ws hmem (by rw [show ws.length + 1 = n from hj]; exact hn), show ws.length + 1 = n from hj]
    simp
  | succ j ih =>
    rw [completes_succ H l ws (j + 1) (2048 ^ j * 2 ^ (11 - n / 3)), pow_succ']
    · ring
    · intro w hw
      refine ih (ws ++ [w]) ?_ (by simp; omega)
      intro v hv
      rcases List.mem_append.1 hv with hv | hv
      · exact hmem v hv
      · rw [List.mem_singleton.1 hv]; exact hw
    · positivity

-- with 10 of 12 words known there are 2^18 candidates for the other two
example (H : Hashes) : {ts : List Str | ts.length = 2 ∧ (∀ t ∈ ts, t ∈ words .english) ∧
    Mnemonic.validate H (spaced (List.replicate 10 "abandon".toList ++ ts)) .english = .ok ()}.ncard = 2 ^ 18 :=
  (C125_lost_words H .english 12 1 (by decide) (List.replicate 10 "abandon".toList)
    (by intro w hw; rw [List.eq_of_mem_replicate hw]; decide +kernel) (by simp)).trans (by norm_num)

theorem mean_count {α β : Type} (P : PMF α) (S : Finset β) (A : α → β → Prop) [∀ a b, Decidable (A a b)] :
    mean P (fun a => (S.filter (A a)).card) = ∑ b ∈ S, chance P (fun a => A a b) := by
  classical
  unfold mean chance
  simp only [PMF.toOuterMeasure_apply, Finset.card_filter, Nat.cast_sum, Nat.cast_ite, Nat.cast_one, Nat.cast_zero, Finset.mul_sum]
  rw [Summable.tsum_finsetSum (fun _ _ => ENNReal.summable)]
  refine Finset.sum_congr rfl fun b _ => tsum_congr fun a => ?_
  simp [Set.indicator_apply]

open Classical in
/-- **C125** Whatever was lost, whether words at any places, their order or anything else: let `S` be the texts that it may
have been, each of `n` words of the list.  If SHA-256 is uniformly distributed on every entropy then on average
`|S| · 2^-(n/3)` of them are accepted by `validate`. -/
theorem C125_candidates (l : Language) (n : Nat) (hn : n ∈ sizes) (S : Finset (List Str))
    (hS : ∀ ws ∈ S, ws.length = n ∧ ∀ w ∈ ws, w ∈ words l) (R : PMF Hashes)
    (hR : ∀ e : Bytes, e.length = 4 * (n / 3) → UniformBytes R 32 (fun H => (H.sha256 e).1)) :
    mean R (fun H => (S.filter (fun ws => Mnemonic.validate H (spaced ws) l = .ok ())).card) =
      S.card * (2 ^ (n / 3) : ℝ≥0∞)⁻¹ := by
  rw [mean_count, Finset.sum_congr rfl (g := fun _ => (2 ^ (n / 3) : ℝ≥0∞)⁻¹), Finset.sum_const, nsmul_eq_mul]
  intro ws hws
  obtain ⟨h1, h2⟩ := hS ws hws
  have hk : n = 3 * (n / 3) := by
    simp only [sizes, List.mem_cons, List.not_mem_nil, or_false] at hn
    omega
  obtain ⟨idx, hi⟩ := wordsAt_exists l ws (by rw [words_eq]; exact h2)
  have hil := wordsAt_length hi
  rw [words_eq] at hi
  obtain ⟨e, he1, he2⟩ := exists_bytes_of_bits (4 * (n / 3)) ((idx.flatMap (bitsOfNat 11)).take (32 * (n / 3))) (by
    rw [List.length_take, flatMap_bits_length]; omega)
  have := (C106_damaged_phrase l ws idx hi (by rw [h1]; exact hn) e (by rw [h1]; exact he2)).1 R (hR e he1)
  rw [this, h1]

-- one word of 24 is wrong, it is not known where, and SHA-256 is uniform: of 24 · 2048 texts 192 are left on average
example (S : Finset (List Str)) (hS : ∀ ws ∈ S, ws.length = 24 ∧ ∀ w ∈ ws, w ∈ words .english) (hc : S.card = 24 * 2048) :
    ∃ R : PMF Hashes, mean R (fun H => (S.filter (fun ws => Mnemonic.validate H (spaced ws) .english = .ok ())).card) = 192 := by
  classical
  obtain ⟨R, hR⟩ := uniform_sha256
  refine ⟨R, ?_⟩
  have := C125_candidates .english 24 (by decide) S hS R (fun e _ => hR (fun _ => e))
  convert this using 1
  rw [hc]
  norm_num
  rw [← div_eq_mul_inv, ENNReal.eq_div_iff (by simp) (by simp)]
  norm_num

/-- **C126** Guessing a fresh phrase: whoever tries the texts `G` finds the phrase of `Mnemonic::new` among them with
probability at most `|G| · 2^-bits`, and exactly that if all of them are phrases of the right size. -/
theorem C126_guess (H : Hashes) (t : MnemonicType) (l : Language) (R : PMF ((n : Nat) → ByteArr n))
    (hR : UniformBytes R (t.entropyBits / 8) (fun rng => (rng (t.entropyBits / 8)).1)) (G : Finset Str) :
    chance R (fun rng => ∃ m, Mnemonic.new H rng t l = .ok m ∧ m.phrase ∈ G) ≤ G.card * (2 ^ t.entropyBits : ℝ≥0∞)⁻¹ ∧
    ((∀ s ∈ G, Mnemonic.validate H s l = .ok () ∧ ∃ ws, Pieces s ws ∧ ws.length = t.wordCount) →
      chance R (fun rng => ∃ m, Mnemonic.new H rng t l = .ok m ∧ m.phrase ∈ G) = G.card * (2 ^ t.entropyBits : ℝ≥0∞)⁻¹) := by
  classical
  have key : chance R (fun rng => ∃ m, Mnemonic.new H rng t l = .ok m ∧ m.phrase ∈ G) =
      ∑ s ∈ G, chance R (fun rng => ∃ m, Mnemonic.new H rng t l = .ok m ∧ m.phrase = s) := by
    rw [chance_congr R (B := fun rng => newText H t l rng ∈ G.image Res.ok), chance_finset,
      Finset.sum_image (fun a _ b _ h => by simpa using h)]
    · exact Finset.sum_congr rfl fun s _ => chance_congr R fun rng => newText_iff H t l rng s
    · intro rng
      rw [Finset.mem_image]
      constructor
      · rintro ⟨m, h1, h2⟩
        exact ⟨_, h2, ((newText_iff ..).2 ⟨m, h1, rfl⟩).symm⟩
      · rintro ⟨s, h1, h2⟩
        obtain ⟨m, h3, h4⟩ := (newText_iff ..).1 h2.symm
        exact ⟨m, h3, h4 ▸ h1⟩
  have good : ∀ s, (Mnemonic.validate H s l = .ok () ∧ ∃ ws, Pieces s ws ∧ ws.length = t.wordCount) →
      chance R (fun rng => ∃ m, Mnemonic.new H rng t l = .ok m ∧ m.phrase = s) = (2 ^ t.entropyBits : ℝ≥0∞)⁻¹ := by
    rintro s ⟨h1, ws, h2, h3⟩
    exact (C100_fresh_phrases_uniform H t l R hR).1 s ws h1 h2 h3
  rw [key]
  constructor
  · rw [← nsmul_eq_mul]
    refine Finset.sum_le_card_nsmul _ _ _ fun s _ => ?_
    by_cases h : Mnemonic.validate H s l = .ok () ∧ ∃ ws, Pieces s ws ∧ ws.length = t.wordCount
    · exact (good s h).le
    · rw [chance_congr R (B := fun _ => False)]
      · unfold chance
        simp
      · intro rng
        refine iff_false_intro ?_
        rintro ⟨m, h1, rfl⟩
        obtain ⟨⟨m', h2, _, ⟨ws, h3, h4, _⟩, h5, _⟩, _⟩ := C07_new_valid_and_injective H t l rng
        rw [h1] at h2
        cases h2
        exact h ⟨h5, ws, h3, h4⟩
  · intro hG
    rw [Finset.sum_congr rfl (fun s hs => good s (hG s hs)), Finset.sum_const, nsmul_eq_mul]

/-- **C126** Repetition: `k` mnemonics are made by `Mnemonic::new` with random bytes that are uniform and independent for
any two of them.  Two given ones have the same phrase with probability exactly `2^-bits`, and any two of the `k` do with
probability at most `k(k−1)/2 · 2^-bits`. -/
theorem C126_repeat (H : Hashes) (t : MnemonicType) (l : Language) (k : Nat) (α : Type) (P : PMF α)
    (rng : Fin k → α → (n : Nat) → ByteArr n)
    (hP : ∀ i j, i ≠ j → UniformPair P (t.entropyBits / 8) (fun a => (rng i a (t.entropyBits / 8)).1)
      (fun a => (rng j a (t.entropyBits / 8)).1)) :
    (∀ i j, i ≠ j → chance P (fun a => ∃ m m', Mnemonic.new H (rng i a) t l = .ok m ∧ Mnemonic.new H (rng j a) t l = .ok m' ∧
      m.phrase = m'.phrase) = (2 ^ t.entropyBits : ℝ≥0∞)⁻¹) ∧
    chance P (fun a => ∃ i j, i ≠ j ∧ ∃ m m', Mnemonic.new H (rng i a) t l = .ok m ∧ Mnemonic.new H (rng j a) t l = .ok m' ∧
      m.phrase = m'.phrase) ≤ (k * (k - 1) / 2 : Nat) * (2 ^ t.entropyBits : ℝ≥0∞)⁻¹ := by
  classical
  have hiff : ∀ r r' : (n : Nat) → ByteArr n, (∃ m m', Mnemonic.new H r t l = .ok m ∧ Mnemonic.new H r' t l = .ok m' ∧
      m.phrase = m'.phrase) ↔ (r (t.entropyBits / 8)).1 = (r' (t.entropyBits / 8)).1 := by
    intro r r'
    obtain ⟨⟨m, h1, _, ⟨ws, h2, h3, _⟩, h4, _⟩, _⟩ := C07_new_valid_and_injective H t l r
    obtain ⟨e, _, he⟩ := new_iff H t l m.phrase h4 ((count_pieces h2).trans h3)
    have e1 := (he r).1 ⟨m, h1, rfl⟩
    rw [e1, eq_comm, ← he r']
    constructor
    · rintro ⟨a, b, ha, hb, hab⟩
      rw [h1] at ha
      cases ha
      exact ⟨b, hb, hab.symm⟩
    · rintro ⟨b, hb, hab⟩
      exact ⟨m, b, h1, hb, hab.symm⟩
  have one : ∀ i j, i ≠ j → chance P (fun a => ∃ m m', Mnemonic.new H (rng i a) t l = .ok m ∧
      Mnemonic.new H (rng j a) t l = .ok m' ∧ m.phrase = m'.phrase) = (2 ^ t.entropyBits : ℝ≥0∞)⁻¹ := by
    intro i j hij
    rw [chance_congr P (fun a => hiff (rng i a) (rng j a)), chance_equal (hP i j hij) (fun a => (rng i a _).2) (fun a => (rng j a _).2), entropy_pow]
  refine ⟨one, ?_⟩
  refine repeat_bound P _ (fun i j hij => (one i j hij).le) ?_
  rintro i j a ⟨m, m', h1, h2, h3⟩
  exact ⟨m', m, h2, h1, h3.symm⟩

-- a million phrases of 24 words
example (H : Hashes) : ∃ (P : PMF (Fin 1000000 → ByteArr 32)) (rng : Fin 1000000 → (Fin 1000000 → ByteArr 32) → (n : Nat) → ByteArr n),
    chance P (fun a => ∃ i j, i ≠ j ∧ ∃ m m', Mnemonic.new H (rng i a) .words24 .english = .ok m ∧
      Mnemonic.new H (rng j a) .words24 .english = .ok m' ∧ m.phrase = m'.phrase) ≤ 499999500000 * (2 ^ 256 : ℝ≥0∞)⁻¹ := by
  obtain ⟨P, hP⟩ := uniform_pairs 1000000 32
  refine ⟨P, fun i a n => if h : 32 = n then h ▸ a i else ⟨List.replicate n 0, by simp⟩, ?_⟩
  have := (C126_repeat H .words24 .english 1000000 _ P (fun i a n => if h : 32 = n then h ▸ a i else ⟨List.replicate n 0, by simp⟩)
    (fun i j hij => hP i j hij)).2
  rw [show ((1000000 * (1000000 - 1) / 2 : Nat) : ℝ≥0∞) = 499999500000 by norm_num] at this
  exact this

end Kms.Props
