import Verif.Proofs.Spells
import Verif.Spec.Unicode
/-
Normalization as modelled is the normalization form KD of the specification.
-/
namespace Kms
open Kms.Spec Kms.Spec.Nfkd Relation

theorem insert_comm {a b : Char} (h : combiningClass b < combiningClass a) (l : Str) :
    insertByClass a (insertByClass b l) = insertByClass b (insertByClass a l) := by
  induction l with
  | nil =>
    simp only [insertByClass]
    rw [if_neg (by omega), if_pos (by omega)]
  | cons d ds ih =>
    by_cases hb : combiningClass b ≤ combiningClass d
    · by_cases ha : combiningClass a ≤ combiningClass d
      · simp only [insertByClass, if_pos hb, if_pos ha]
        rw [if_neg (by omega), if_pos (by omega)]
      · simp only [insertByClass, if_pos hb, if_neg ha]
        rw [if_neg (by omega)]
    · have ha : ¬ combiningClass a ≤ combiningClass d := by omega
      simp only [insertByClass, if_neg hb, if_neg ha, ih]

theorem sortPending_swap {a b : Char} (h : combiningClass b < combiningClass a) (u v : Str) :
    sortPending (u ++ a :: b :: v) = sortPending (u ++ b :: a :: v) := by
  induction u with
  | nil => exact insert_comm h _
  | cons c u ih => simp only [List.cons_append, sortPending, ih]

theorem reorder_pending_swap {a b : Char} (h : combiningClass b < combiningClass a) (u v s : Str) :
    reorder (u ++ a :: b :: v) s = reorder (u ++ b :: a :: v) s := by
  induction s generalizing v with
  | nil => exact sortPending_swap h u v
  | cons c s ih =>
    unfold reorder
    split
    · rw [sortPending_swap h]
    · have := ih (v ++ [c])
      simpa using this

theorem reorder_swap {a b : Char} (h : combiningClass b < combiningClass a) (hb : 0 < combiningClass b) (p u v : Str) :
    reorder p (u ++ a :: b :: v) = reorder p (u ++ b :: a :: v) := by
  induction u generalizing p with
  | nil =>
    simp only [List.nil_append]
    have e : ∀ x y : Char, combiningClass x ≠ 0 → combiningClass y ≠ 0 →
        reorder p (x :: y :: v) = reorder (p ++ [x, y]) v := by
      intro x y hx hy
      rw [reorder, if_neg hx, reorder, if_neg hy]
      simp
    rw [e a b (by omega) (by omega), e b a (by omega) (by omega)]
    exact reorder_pending_swap h p [] v
  | cons c u ih =>
    simp only [List.cons_append, reorder]
    split
    · rw [ih]
    · rw [ih]

theorem reorder_exchange {s t : Str} (h : Exchange combiningClass s t) : reorder [] s = reorder [] t := by
  cases h with
  | mk u v a b h hb => exact reorder_swap h hb [] u v

theorem reorder_exchanges {s t : Str} (h : ReflTransGen (Exchange combiningClass) s t) : reorder [] s = reorder [] t := by
  induction h with
  | refl => rfl
  | tail _ h ih => exact ih.trans (reorder_exchange h)

/-- Exchanges inside a longer text. -/
theorem exchange_append (u v : Str) {s t : Str} (h : Exchange combiningClass s t) :
    Exchange combiningClass (u ++ s ++ v) (u ++ t ++ v) := by
  cases h with
  | mk x y a b h hb =>
    have := Exchange.mk (ccc := combiningClass) (u ++ x) (y ++ v) a b h hb
    simpa using this

theorem exchanges_append (u v : Str) {s t : Str} (h : ReflTransGen (Exchange combiningClass) s t) :
    ReflTransGen (Exchange combiningClass) (u ++ s ++ v) (u ++ t ++ v) := by
  induction h with
  | refl => exact .refl
  | tail _ h ih => exact ih.tail (exchange_append u v h)

theorem insert_exchanges (c : Char) (l : Str) (hl : ∀ d ∈ l, combiningClass d ≠ 0) :
    ReflTransGen (Exchange combiningClass) (c :: l) (insertByClass c l) := by
  induction l with
  | nil => exact .refl
  | cons d ds ih =>
    unfold insertByClass
    split
    · exact .refl
    · rename_i h
      have h1 : Exchange combiningClass (c :: d :: ds) (d :: c :: ds) :=
        .mk [] ds c d (by omega) (Nat.pos_of_ne_zero (hl d (by simp)))
      have h2 := exchanges_append [d] [] (ih (fun e he => hl e (by simp [he])))
      simp only [List.append_nil, List.singleton_append] at h2
      exact .head h1 h2

theorem sort_exchanges (l : Str) (hl : ∀ d ∈ l.tail, combiningClass d ≠ 0) :
    ReflTransGen (Exchange combiningClass) l (sortPending l) := by
  induction l with
  | nil => exact .refl
  | cons c cs ih =>
    simp only [List.tail_cons] at hl
    have h1 := ih (fun d hd => hl d (List.mem_of_mem_tail hd))
    have h2 := exchanges_append [c] [] h1
    simp only [List.append_nil, List.singleton_append] at h2
    exact h2.trans (insert_exchanges c _ (fun d hd => hl d ((sortPending_perm cs).mem_iff.1 hd)))

theorem reorder_from (p s : Str) (hp : ∀ d ∈ p.tail, combiningClass d ≠ 0) :
    ReflTransGen (Exchange combiningClass) (p ++ s) (reorder p s) := by
  induction s generalizing p with
  | nil => simpa [reorder] using sort_exchanges p hp
  | cons c cs ih =>
    unfold reorder
    split
    · have h1 := exchanges_append [] (c :: cs) (sort_exchanges p hp)
      have h2 := exchanges_append (sortPending p) [] (ih [c] (by simp))
      simp only [List.append_nil, List.nil_append, List.singleton_append] at h1 h2
      exact h1.trans h2
    · rename_i hc
      have := ih (p ++ [c]) (by
        intro d hd
        cases p with
        | nil => simp at hd
        | cons x p =>
          simp only [List.cons_append, List.tail_cons, List.mem_append, List.mem_singleton] at hd
          rcases hd with hd | rfl
          · exact hp d hd
          · exact hc)
      simpa using this

theorem canon_iff (t : Str) : (∀ t', ¬ Exchange combiningClass t t') ↔ CanonOrder t := by
  constructor
  · intro h
    rw [CanonOrder, List.isChain_iff_forall_rel_of_append_cons_cons]
    intro a b u v e
    by_contra hc
    exact h _ (e ▸ Exchange.mk u v a b (by omega) (by omega))
  · intro h t' ht
    cases ht with
    | mk u v a b h1 h2 =>
      rw [CanonOrder, List.isChain_iff_forall_rel_of_append_cons_cons] at h
      have := h rfl
      omega

theorem nfkd_ordered (s : Str) : Ordered combiningClass (s.flatMap decomposeCompatible) (nfkd s) :=
  ⟨reorder_from [] _ (by simp), (canon_iff _).2 (reorder_canon [] _)⟩

theorem nfkd_of_ordered {s t : Str} (h : Ordered combiningClass (s.flatMap decomposeCompatible) t) : t = nfkd s := by
  have h1 := reorder_exchanges h.1
  rw [reorder_of_canon [] t (by simp) (by simpa using (canon_iff t).1 h.2)] at h1
  exact h1.symm

theorem ccc_eq : ccc = combiningClass := rfl

theorem syllable_toNat {l v t : Nat} (hl : l < 19) (hv : v < 21) (ht : t < 28) :
    (syllable l v t).toNat = 0xAC00 + (l * 21 + v) * 28 + t := toNat_ofNat (by omega) (by omega)

theorem decompose_syllable {l v t : Nat} (hl : l < 19) (hv : v < 21) (ht : t < 28) :
    decomposeCompatible (syllable l v t) = jamo l v t := by
  have hn := syllable_toNat hl hv ht
  unfold decomposeCompatible
  have hh : isHangulSyllable (syllable l v t) = true := by
    simp only [isHangulSyllable, hn, Bool.and_eq_true, decide_eq_true_eq]
    omega
  rw [if_neg (by omega), if_pos hh]
  unfold decomposeHangul jamo
  rw [hn]
  have e1 : (0xAC00 + (l * 21 + v) * 28 + t - 0xAC00) / 588 = l := by omega
  have e2 : (0xAC00 + (l * 21 + v) * 28 + t - 0xAC00) % 588 / 28 = v := by omega
  have e3 : (0xAC00 + (l * 21 + v) * 28 + t - 0xAC00) % 28 = t := by omega
  simp only [e1, e2, e3]
  split <;> rfl

/-- The syllables are those of the arithmetic. -/
theorem hangul_syllable {c : Char} (h : isHangulSyllable c = true) :
    ∃ l v t, l < 19 ∧ v < 21 ∧ t < 28 ∧ c = syllable l v t := by
  simp only [isHangulSyllable, Bool.and_eq_true, decide_eq_true_eq] at h
  refine ⟨(c.toNat - 0xAC00) / 588, (c.toNat - 0xAC00) % 588 / 28, (c.toNat - 0xAC00) % 28, by omega, by omega, by omega, ?_⟩
  unfold syllable
  rw [show 0xAC00 + ((c.toNat - 0xAC00) / 588 * 21 + (c.toNat - 0xAC00) % 588 / 28) * 28 + (c.toNat - 0xAC00) % 28 = c.toNat by
    omega, Char.ofNat_toNat]

theorem decompositions_no_hangul :
    Data.decompositions.all (fun p => !(0xAC00 ≤ p.1 && p.1 < 0xAC00 + 11172)) = true := by decide +kernel

theorem decomposes_iff {c : Char} {ds : Str} : Decomposes c ds ↔ decomposeCompatible c = ds := by
  constructor
  · intro h
    cases h with
    | hangul l v t hl hv ht => exact decompose_syllable hl hv ht
    | listed _ ds h =>
      have h1 := entry_ok (mem_of_lookup h)
      have h2 := List.all_eq_true.mp decompositions_no_hangul _ (mem_of_lookup h)
      simp [entryOk] at h1
      unfold decomposeCompatible
      rw [if_neg (by omega), if_neg (by simp [isHangulSyllable] at h2 ⊢; omega), h]
    | itself _ h1 h2 =>
      unfold decomposeCompatible
      rw [h2]
      split
      · rfl
      · rw [if_neg]
        intro hh
        obtain ⟨l, v, t, hl, hv, ht, e⟩ := hangul_syllable hh
        exact h1 l v t hl hv ht e
  · rintro rfl
    by_cases hh : isHangulSyllable c = true
    · obtain ⟨l, v, t, hl, hv, ht, rfl⟩ := hangul_syllable hh
      rw [decompose_syllable hl hv ht]
      exact .hangul l v t hl hv ht
    · have hs : ∀ l v t, l < 19 → v < 21 → t < 28 → c ≠ syllable l v t := by
        rintro l v t hl hv ht rfl
        apply hh
        simp only [isHangulSyllable, syllable_toNat hl hv ht, Bool.and_eq_true, decide_eq_true_eq]
        omega
      cases hc : Data.decompositions.lookup c.toNat with
      | none =>
        have : decomposeCompatible c = [c] := by
          unfold decomposeCompatible
          rw [if_neg hh, hc]
          split <;> rfl
        rw [this]
        exact .itself c hs hc
      | some ds =>
        have h1 := entry_ok (mem_of_lookup hc)
        simp [entryOk] at h1
        have : decomposeCompatible c = ds.map Char.ofNat := by
          unfold decomposeCompatible
          rw [if_neg (by omega), if_neg hh, hc]
        rw [this]
        exact .listed c ds hc

theorem isNfkd_iff {s t : Str} : IsNfkd s t ↔ nfkd s = t := by
  have hp : ∀ (s : Str) parts, List.Forall₂ Decomposes s parts ↔ parts = s.map decomposeCompatible := by
    intro s
    induction s with
    | nil => intro parts; simp
    | cons c s ih =>
      intro parts
      rw [List.forall₂_cons_left_iff]
      constructor
      · rintro ⟨d, ds, h1, h2, rfl⟩
        rw [(ih ds).1 h2, ← decomposes_iff.1 h1]
        rfl
      · rintro rfl
        exact ⟨_, _, decomposes_iff.2 rfl, (ih _).2 rfl, rfl⟩
  unfold IsNfkd
  rw [ccc_eq]
  constructor
  · rintro ⟨parts, h1, h2⟩
    rw [(hp s parts).1 h1, ← List.flatMap_def] at h2
    exact (nfkd_of_ordered h2).symm
  · rintro rfl
    refine ⟨_, (hp s _).2 rfl, ?_⟩
    rw [← List.flatMap_def]
    exact nfkd_ordered s

theorem forall_isNfkd_iff {raw ws : List Str} : List.Forall₂ IsNfkd raw ws ↔ raw.map nfkd = ws := by
  induction raw generalizing ws with
  | nil => simp [eq_comm]
  | cons r raw ih =>
    rw [List.forall₂_cons_left_iff, List.map_cons]
    constructor
    · rintro ⟨d, ds, h1, h2, rfl⟩
      rw [ih.1 h2, isNfkd_iff.1 h1]
    · rintro rfl
      exact ⟨_, _, isNfkd_iff.2 rfl, ih.2 rfl, rfl⟩

theorem normalWords_iff {s : Str} {ws : List Str} : NormalWords s ws ↔ (splitWhitespace s).map nfkd = ws := by
  unfold NormalWords
  constructor
  · rintro ⟨raw, h1, h2⟩
    rw [spells_iff.1 h1, forall_isNfkd_iff.1 h2]
  · intro h
    exact ⟨_, spells_iff.2 rfl, forall_isNfkd_iff.2 h⟩

theorem not_mem_piece {sep : Char} {s w : Str} (h : w ∈ splitChar sep s) : sep ∉ w := by
  induction s generalizing w with
  | nil => simp [splitChar] at h; simp [h]
  | cons d ds ih =>
    by_cases hd : d = sep
    · subst hd
      rw [splitChar_sep, List.mem_cons] at h
      rcases h with rfl | h
      · simp
      · exact ih h
    · obtain ⟨v, vs, h1, h2⟩ := splitChar_cons_ne (cs := ds) hd
      rw [h2, List.mem_cons] at h
      rcases h with rfl | h
      · have := ih (w := v) (by simp [h1])
        simp [this, Ne.symm hd]
      · exact ih (by simp [h1, h])

theorem pieces_iff {s : Str} {ws : List Str} : Pieces s ws ↔ splitChar ' ' s = ws := by
  unfold Pieces
  rw [Bip39.spaced_eq_join]
  constructor
  · rintro ⟨h1, rfl, h3⟩
    exact splitChar_join _ h1 h3
  · rintro rfl
    exact ⟨splitChar_ne_nil _ _, join_splitChar _ _, fun w hw => not_mem_piece hw⟩

end Kms
