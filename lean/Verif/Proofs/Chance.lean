import Verif.Spec.Chance
import Verif.Props.PhraseCount
import Mathlib.Probability.Distributions.Uniform
/-
Probabilities of events that depend on uniformly distributed bytes.
-/
namespace Kms.Props
open Spec
open scoped ENNReal

theorem finite_bytes (m : Nat) : {e : Bytes | e.length = m}.Finite := by
  apply Set.finite_of_ncard_ne_zero
  rw [ncard_bytes]
  positivity

/-- The probability of finitely many values. -/
theorem chance_finset {α β : Type} (P : PMF α) (f : α → β) (s : Finset β) :
    chance P (fun a => f a ∈ s) = ∑ b ∈ s, chance P (fun a => f a = b) := by
  classical
  have h1 := PMF.toOuterMeasure_apply_finset (P.map f) s
  have h2 : ∀ b, (P.map f) b = chance P (fun a => f a = b) := by
    intro b
    rw [← PMF.toOuterMeasure_apply_singleton, PMF.toOuterMeasure_map_apply]
    rfl
  rw [PMF.toOuterMeasure_map_apply] at h1
  rw [show chance P (fun a => f a ∈ s) = P.toOuterMeasure (f ⁻¹' (s : Set β)) from rfl, h1]
  exact Finset.sum_congr rfl (fun b _ => h2 b)

theorem chance_true {α : Type} (P : PMF α) {A : α → Prop} (h : ∀ a, A a) : chance P A = 1 := by
  unfold chance
  rw [PMF.toOuterMeasure_apply_eq_one_iff]
  exact fun a _ => h a

theorem chance_congr {α : Type} (P : PMF α) {A B : α → Prop} (h : ∀ a, A a ↔ B a) : chance P A = chance P B := by
  unfold chance
  congr 1
  ext a
  exact h a

theorem chance_mono {α : Type} (P : PMF α) {A B : α → Prop} (h : ∀ a, A a → B a) : chance P A ≤ chance P B := by
  unfold chance
  exact P.toOuterMeasure.mono h

/-- The probability of an event decided by uniform bytes is the number of byte strings for which it holds, over the number
of all. -/
theorem uniform_chance {α : Type} {P : PMF α} {n : Nat} {f : α → Bytes} (h : UniformBytes P n f) (hn : ∀ a, (f a).length = n)
    (A : Bytes → Prop) :
    chance P (fun a => A (f a)) = ({b : Bytes | b.length = n ∧ A b}.ncard : ℝ≥0∞) * (2 ^ (8 * n) : ℝ≥0∞)⁻¹ := by
  have hfin : {b : Bytes | b.length = n ∧ A b}.Finite := (finite_bytes n).subset (fun b hb => hb.1)
  rw [Set.ncard_eq_toFinset_card _ hfin, ← nsmul_eq_mul]
  rw [chance_congr P (B := fun a => f a ∈ hfin.toFinset) (fun a => by simp [hn a]), chance_finset]
  rw [Finset.sum_congr rfl (fun b hb => h b (by simp at hb; exact hb.1)), Finset.sum_const]

theorem chance_map {α β : Type} (P : PMF α) (f : α → β) (A : β → Prop) : chance (P.map f) A = chance P (fun a => A (f a)) := by
  unfold chance
  rw [PMF.toOuterMeasure_map_apply]
  rfl

/-- Uniformly distributed bytes exist. -/
theorem uniform_exists (n : Nat) : ∃ P : PMF (ByteArr n), UniformBytes P n (fun b => b.1) := by
  let i1 : Fintype UInt8 := Fintype.ofEquiv (Fin 256)
    ⟨fun i => UInt8.ofFin i, fun b => b.toFin, fun _ => rfl, fun _ => rfl⟩
  let i2 : Fintype (ByteArr n) := (inferInstance : Fintype (List.Vector UInt8 n))
  have hc : Fintype.card (ByteArr n) = 2 ^ (8 * n) := by
    show Fintype.card (List.Vector UInt8 n) = _
    rw [card_vector, Fintype.ofEquiv_card, Fintype.card_fin, pow_mul]
    norm_num
  have i3 : Nonempty (ByteArr n) := ⟨⟨List.replicate n 0, by simp⟩⟩
  refine ⟨PMF.uniformOfFintype (ByteArr n), ?_⟩
  intro b hb
  unfold chance
  have : {a : ByteArr n | a.1 = b} = {(⟨b, hb⟩ : ByteArr n)} := by
    ext a
    exact ⟨fun h => Subtype.ext h, fun h => congrArg Subtype.val h⟩
  rw [this, PMF.toOuterMeasure_apply_singleton, PMF.uniformOfFintype_apply, hc]
  simp

theorem chance_or {α ι : Type} (P : PMF α) (s : Finset ι) (A : ι → α → Prop) :
    chance P (fun a => ∃ i ∈ s, A i a) ≤ ∑ i ∈ s, chance P (A i) := by
  unfold chance
  have : {a | ∃ i ∈ s, A i a} = ⋃ i ∈ s, {a | A i a} := by
    ext a
    simp
  rw [this]
  exact MeasureTheory.measure_biUnion_finset_le s _

/-- Events about pairs of `k` things: some two are in the event with probability at most `k(k−1)/2` times that of one pair. -/
theorem repeat_bound {α : Type} {k : Nat} (P : PMF α) (A : Fin k → Fin k → α → Prop) {u : ℝ≥0∞}
    (one : ∀ i j, i ≠ j → chance P (A i j) ≤ u) (sym : ∀ i j a, A i j a → A j i a) :
    chance P (fun a => ∃ i j, i ≠ j ∧ A i j a) ≤ (k * (k - 1) / 2 : Nat) * u := by
  classical
  set T : Finset (Fin k × Fin k) := Finset.univ.filter (fun p => p.1 < p.2) with hT
  have hcard : T.card = k * (k - 1) / 2 := by
    have h1 : (Finset.univ.filter (fun p : Fin k × Fin k => p.2 < p.1)).card = T.card := by
      refine Finset.card_bij (fun p _ => p.swap) ?_ ?_ ?_
      · intro p hp
        simpa [hT] using hp
      · intro a _ b _ h
        exact Prod.swap_injective h
      · intro p hp
        exact ⟨p.swap, by simpa [hT] using hp, Prod.swap_swap p⟩
    have h2 : (Finset.univ : Finset (Fin k)).offDiag.card = T.card + T.card := by
      conv_rhs => arg 2; rw [← h1]
      rw [hT, ← Finset.card_union_of_disjoint]
      · congr 1
        ext p
        simp only [Finset.mem_offDiag, Finset.mem_univ, true_and, Finset.mem_union, Finset.mem_filter]
        exact ne_iff_lt_or_gt
      · rw [Finset.disjoint_left]
        intro p a b
        simp at a b
        exact absurd a (not_lt.2 b.le)
    rw [Finset.offDiag_card, Finset.card_univ, Fintype.card_fin] at h2
    rw [Nat.mul_sub_one]
    omega
  rw [chance_congr P (B := fun a => ∃ p ∈ T, A p.1 p.2 a)]
  · refine (chance_or P T _).trans ?_
    rw [← hcard, ← nsmul_eq_mul]
    exact Finset.sum_le_card_nsmul _ _ _ fun p hp => one p.1 p.2 (by simp [hT] at hp; exact hp.ne)
  · intro a
    constructor
    · rintro ⟨i, j, hij, h⟩
      rcases lt_or_gt_of_ne hij with h' | h'
      · exact ⟨(i, j), by simpa [hT] using h', h⟩
      · exact ⟨(j, i), by simpa [hT] using h', sym i j a h⟩
    · rintro ⟨p, hp, h⟩
      exact ⟨p.1, p.2, by simp [hT] at hp; exact hp.ne, h⟩

/-- Two draws of independent uniform bytes agree in `q` with the probability of the fibres of `q`, if these have the same
size. -/
theorem pair_fibre {α β : Type} {P : PMF α} {n N : Nat} {f g : α → Bytes} (h : UniformPair P n f g) (hf : ∀ a, (f a).length = n)
    (hg : ∀ a, (g a).length = n) (q : Bytes → β) (hq : ∀ b, b.length = n → {c : Bytes | c.length = n ∧ q b = q c}.ncard = N) :
    chance P (fun a => q (f a) = q (g a)) = N * (2 ^ (8 * n) : ℝ≥0∞)⁻¹ := by
  classical
  have hfin := finite_bytes n
  set T : Finset (Bytes × Bytes) := (hfin.toFinset ×ˢ hfin.toFinset).filter (fun p => q p.1 = q p.2) with hT
  have hcard : T.card = 256 ^ n * N := by
    have h1 : T = hfin.toFinset.biUnion fun b => (hfin.toFinset.filter (fun c => q b = q c)).image (fun c => (b, c)) := by
      ext ⟨b, c⟩
      simp only [hT, Finset.mem_filter, Finset.mem_product, Finset.mem_biUnion, Finset.mem_image, Prod.mk.injEq]
      constructor
      · rintro ⟨⟨h1, h2⟩, h3⟩
        exact ⟨b, h1, c, ⟨h2, h3⟩, rfl, rfl⟩
      · rintro ⟨b', h1, c', ⟨h2, h3⟩, rfl, rfl⟩
        exact ⟨⟨h1, h2⟩, h3⟩
    rw [h1, Finset.card_biUnion]
    · rw [Finset.sum_congr rfl (g := fun _ => N), Finset.sum_const, ← Set.ncard_eq_toFinset_card _ hfin, ncard_bytes]
      · rfl
      · intro b hb
        rw [Finset.card_image_of_injective _ (fun x y hxy => (Prod.mk.injEq .. ▸ hxy).2),
          ← hq b (by simpa using hb), ← Set.ncard_coe_finset]
        congr 1
        ext c
        simp
    · intro a _ b _ hab
      rw [Function.onFun, Finset.disjoint_left]
      intro p h1 h2
      obtain ⟨x, _, rfl⟩ := Finset.mem_image.1 h1
      obtain ⟨y, _, hy⟩ := Finset.mem_image.1 h2
      exact hab (Prod.mk.injEq .. ▸ hy).1.symm
  rw [chance_congr P (B := fun a => (f a, g a) ∈ T), chance_finset P (fun a => (f a, g a))]
  · rw [Finset.sum_congr rfl (g := fun _ => (2 ^ (8 * n) : ℝ≥0∞)⁻¹ * (2 ^ (8 * n) : ℝ≥0∞)⁻¹), Finset.sum_const, hcard,
      nsmul_eq_mul]
    · have : ((256 ^ n * N : Nat) : ℝ≥0∞) = N * 2 ^ (8 * n) := by
        rw [pow_mul]; push_cast; norm_num; ring
      rw [this, mul_assoc, ← mul_assoc (2 ^ (8 * n) : ℝ≥0∞), ENNReal.mul_inv_cancel (by simp) (by simp), one_mul]
    · rintro ⟨b, c⟩ hbc
      simp only [hT, Finset.mem_filter, Finset.mem_product, Set.Finite.mem_toFinset, Set.mem_ofPred_eq] at hbc
      rw [← h b c hbc.1.1 hbc.1.2]
      exact chance_congr P fun a => by simp
  · intro a
    simp [hT, hf a, hg a]

/-- Two draws of independent uniform bytes are equal with probability one over their number. -/
theorem chance_equal {α : Type} {P : PMF α} {n : Nat} {f g : α → Bytes} (h : UniformPair P n f g) (hf : ∀ a, (f a).length = n)
    (hg : ∀ a, (g a).length = n) : chance P (fun a => f a = g a) = (2 ^ (8 * n) : ℝ≥0∞)⁻¹ := by
  have := pair_fibre (N := 1) h hf hg id (fun b hb => by
    rw [Set.ncard_eq_one]
    refine ⟨b, ?_⟩
    ext c
    simp only [id_eq, Set.mem_ofPred_eq, Set.mem_singleton_iff]
    exact ⟨fun h => h.2.symm, fun h => ⟨h ▸ hb, h.symm⟩⟩)
  simpa using this

/-- Any number of independent uniform generators exist. -/
theorem uniform_pairs (k L : Nat) : ∃ (P : PMF (Fin k → ByteArr L)),
    ∀ i j, i ≠ j → UniformPair P L (fun a => (a i).1) (fun a => (a j).1) := by
  classical
  let i1 : Fintype UInt8 := Fintype.ofEquiv (Fin 256)
    ⟨fun i => UInt8.ofFin i, fun b => b.toFin, fun _ => rfl, fun _ => rfl⟩
  let i2 : Fintype (ByteArr L) := (inferInstance : Fintype (List.Vector UInt8 L))
  have hc : Fintype.card (ByteArr L) = 2 ^ (8 * L) := by
    show Fintype.card (List.Vector UInt8 L) = _
    rw [card_vector, Fintype.ofEquiv_card, Fintype.card_fin, pow_mul]
    norm_num
  have i3 : Nonempty (ByteArr L) := ⟨⟨List.replicate L 0, by simp⟩⟩
  refine ⟨PMF.uniformOfFintype _, ?_⟩
  intro i j hij b c hb hcl
  set T : Finset (Fin k → ByteArr L) := Fintype.piFinset fun x =>
    if x = i then {⟨b, hb⟩} else if x = j then {⟨c, hcl⟩} else Finset.univ with hT
  have hset : {a : Fin k → ByteArr L | (a i).1 = b ∧ (a j).1 = c} = T := by
    ext a
    simp only [hT, Finset.mem_coe, Fintype.mem_piFinset]
    constructor
    · rintro ⟨h1, h2⟩ x
      split_ifs with hx hy
      · subst hx; simpa using Subtype.ext h1
      · subst hy; simpa using Subtype.ext h2
      · simp
    · intro h
      have h1 := h i
      have h2 := h j
      rw [if_pos rfl, Finset.mem_singleton] at h1
      rw [if_neg hij.symm, if_pos rfl, Finset.mem_singleton] at h2
      exact ⟨congrArg Subtype.val h1, congrArg Subtype.val h2⟩
  have hcard : T.card * (2 ^ (8 * L) * 2 ^ (8 * L)) = Fintype.card (Fin k → ByteArr L) := by
    rw [hT, Fintype.card_piFinset, Fintype.card_fun, hc, Fintype.card_fin]
    rw [← Finset.mul_prod_erase _ _ (Finset.mem_univ i), ← Finset.mul_prod_erase _ _ (Finset.mem_erase.2 ⟨hij.symm, Finset.mem_univ j⟩)]
    rw [Finset.prod_congr rfl (g := fun _ => 2 ^ (8 * L))]
    · have hk : ((Finset.univ.erase i).erase j : Finset (Fin k)).card + 2 = k := by
        have h1 := Finset.card_erase_add_one (Finset.mem_univ i)
        have h2 := Finset.card_erase_add_one (Finset.mem_erase.2 ⟨hij.symm, Finset.mem_univ j⟩)
        rw [Finset.card_univ, Fintype.card_fin] at h1
        omega
      rw [Finset.prod_const, if_pos rfl, if_neg hij.symm, if_pos rfl, Finset.card_singleton, Finset.card_singleton, one_mul, one_mul]
      conv_rhs => rw [← hk, pow_add]
      rw [pow_two]
    · intro x hx
      simp only [Finset.mem_erase, Finset.mem_univ, and_true] at hx
      rw [if_neg hx.2, if_neg hx.1, Finset.card_univ, hc]
  have hpos : (T.card : ℝ≥0∞) ≠ 0 := by
    intro h
    rw [Nat.cast_eq_zero] at h
    rw [h, zero_mul] at hcard
    exact absurd hcard.symm Fintype.card_ne_zero
  unfold chance
  rw [hset, PMF.toOuterMeasure_apply_finset, Finset.sum_congr rfl (fun a _ => PMF.uniformOfFintype_apply a), Finset.sum_const,
    nsmul_eq_mul, ← hcard]
  push_cast
  have hfin : (2 ^ (8 * L) * 2 ^ (8 * L) : ℝ≥0∞) ≠ ∞ := ENNReal.mul_ne_top (by simp) (by simp)
  rw [ENNReal.mul_inv (Or.inl hpos) (Or.inr (by positivity)), ← mul_assoc, ENNReal.mul_inv_cancel hpos (by simp), one_mul,
    ENNReal.mul_inv (by simp) (by simp)]

end Kms.Props
