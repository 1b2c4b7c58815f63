import Verif.Proofs.NfkdTables
/-
Laws of normalisation: idempotence, concatenation, and its effect on list words.
-/
namespace Kms
open Bip39 (isLowerLatin isHan)

theorem mem_of_lookup {β : Type} {k : Nat} {v : β} {l : List (Nat × β)} (h : l.lookup k = some v) : (k, v) ∈ l := by
  induction l with
  | nil => simp at h
  | cons p r ih =>
    obtain ⟨a, b⟩ := p
    rw [List.lookup_cons] at h
    split at h
    · rename_i e
      simp at e h
      simp [e, h]
    · simp [ih h]

theorem lookup_isSome_of_mem {β : Type} {k : Nat} {l : List (Nat × β)} (h : k ∉ l.map Prod.fst) : l.lookup k = none := by
  cases hl : l.lookup k with
  | none => rfl
  | some v => exact absurd (List.mem_map.mpr ⟨_, mem_of_lookup hl, rfl⟩) h

theorem entry_ok {p : Nat × List Nat} (h : p ∈ Data.decompositions) :
    entryOk (keyBits Data.decompositions) p = true := List.all_eq_true.mp decompositions_ok p h

theorem toNat_ofNat {n : Nat} (h1 : n < 0x110000) (h2 : ¬ (0xD800 ≤ n ∧ n < 0xE000)) : (Char.ofNat n).toNat = n := by
  have hv : n.isValidChar := by unfold Nat.isValidChar; omega
  unfold Char.ofNat
  rw [dif_pos hv]
  rfl

theorem combiningClass_pos {c : Char} (h : combiningClass c ≠ 0) :
    0x80 ≤ c.toNat ∧ ¬ (0x4E00 ≤ c.toNat ∧ c.toNat ≤ 0x9F99) ∧ isWhitespace c = false := by
  unfold combiningClass at h
  cases hl : Data.combiningClasses.lookup c.toNat with
  | none => simp [hl] at h
  | some v =>
    have := List.all_eq_true.mp combiningClasses_ok _ (mem_of_lookup hl)
    simp [classOk] at this
    refine ⟨by omega, by omega, this.1.1.2⟩

/-- Decomposition is already complete: its results decompose no further. -/
theorem decompose_fixed {c d : Char} (h : d ∈ decomposeCompatible c) : decomposeCompatible d = [d] := by
  unfold decomposeCompatible at h
  split at h
  · rename_i hc
    simp at h; subst h
    simp [decomposeCompatible, hc]
  · split at h
    · rename_i hc hh
      have small : ∀ n, 0x1100 ≤ n → n ≤ 0x11FF → d = Char.ofNat n → decomposeCompatible d = [d] := by
        intro n h1 h2 e
        subst e
        have hv : (Char.ofNat n).toNat = n := toNat_ofNat (by omega) (by omega)
        have hkey : n ∉ Data.decompositions.map Prod.fst := by
          intro hm
          obtain ⟨q, hq, rfl⟩ := List.mem_map.mp hm
          have := entry_ok hq
          simp [entryOk] at this
          omega
        unfold decomposeCompatible
        rw [hv, lookup_isSome_of_mem hkey]
        split
        · rfl
        · rw [if_neg (by simp [isHangulSyllable, hv]; omega)]
      have hlt : c.toNat - 0xAC00 < 11172 := by
        simp [isHangulSyllable] at hh; omega
      simp only [decomposeHangul] at h
      generalize c.toNat - 0xAC00 = si at h hlt
      split at h
      · simp at h
        rcases h with h | h <;> exact small _ (by omega) (by omega) h
      · simp at h
        rcases h with h | h | h <;> exact small _ (by omega) (by omega) h
    · rename_i hc hh
      split at h
      · rename_i ds hl
        have hok := entry_ok (mem_of_lookup hl)
        simp only [List.mem_map] at h
        obtain ⟨n, hn, rfl⟩ := h
        simp only [entryOk, Bool.and_eq_true, List.all_eq_true] at hok
        have hn' := hok.1.2 n hn
        simp at hn'
        have hv : (Char.ofNat n).toNat = n := toNat_ofNat (by omega) (by omega)
        have hkey : n ∉ Data.decompositions.map Prod.fst := by
          intro hm
          have := (keyBits_spec Data.decompositions 0 n).mpr (.inr hm)
          rw [keyBits, this] at hn'
          simp at hn'
        unfold decomposeCompatible
        rw [hv, lookup_isSome_of_mem hkey]
        split
        · rfl
        · rw [if_neg (by simp [isHangulSyllable, hv]; omega)]
      · rename_i hl
        simp at h; subst h
        simp [decomposeCompatible, hc, hh, hl]

/-! ### reordering -/

theorem insertByClass_perm (c : Char) (l : Str) : (insertByClass c l).Perm (c :: l) := by
  induction l with
  | nil => exact .refl _
  | cons d ds ih =>
    unfold insertByClass
    split
    · exact .refl _
    · exact (List.Perm.cons d ih).trans (List.Perm.swap c d ds)

theorem sortPending_perm (l : Str) : (sortPending l).Perm l := by
  induction l with
  | nil => exact .refl _
  | cons c cs ih => exact (insertByClass_perm c _).trans (List.Perm.cons c ih)

theorem reorder_perm (p s : Str) : (reorder p s).Perm (p ++ s) := by
  induction s generalizing p with
  | nil => simpa [reorder] using sortPending_perm p
  | cons c cs ih =>
    unfold reorder
    split
    · exact (sortPending_perm p).append (ih [c])
    · have := ih (p ++ [c])
      simpa using this

/-- sorted by class -/
abbrev ByClass (l : Str) : Prop := l.Pairwise (fun a b => combiningClass a ≤ combiningClass b)

theorem insertByClass_sorted (c : Char) (l : Str) (h : ByClass l) : ByClass (insertByClass c l) := by
  induction l with
  | nil => simp [insertByClass, ByClass]
  | cons d ds ih =>
    unfold insertByClass
    obtain ⟨h1, h2⟩ := List.pairwise_cons.mp h
    split
    · rename_i hc
      refine List.pairwise_cons.mpr ⟨?_, h⟩
      intro e he
      simp at he
      rcases he with rfl | he
      · exact hc
      · exact Nat.le_trans hc (h1 e he)
    · rename_i hc
      refine List.pairwise_cons.mpr ⟨?_, ih h2⟩
      intro e he
      have := (insertByClass_perm c ds).mem_iff.mp he
      simp at this
      rcases this with rfl | he
      · omega
      · exact h1 e he

theorem sortPending_sorted (l : Str) : ByClass (sortPending l) := by
  induction l with
  | nil => simp [sortPending, ByClass]
  | cons c cs ih => exact insertByClass_sorted c _ ih

theorem sortPending_of_sorted (l : Str) (h : ByClass l) : sortPending l = l := by
  induction l with
  | nil => rfl
  | cons c cs ih =>
    obtain ⟨h1, h2⟩ := List.pairwise_cons.mp h
    rw [sortPending, ih h2]
    cases cs with
    | nil => rfl
    | cons d ds => rw [insertByClass, if_pos (h1 d (by simp))]

theorem sortPending_starter {c : Char} (hc : combiningClass c = 0) (l : Str) :
    sortPending (c :: l) = c :: sortPending l := by
  rw [sortPending]
  cases sortPending l with
  | nil => rfl
  | cons d ds => rw [insertByClass, if_pos (by omega)]

theorem reorder_starter {c : Char} (hc : combiningClass c = 0) (p s : Str) :
    reorder (c :: p) s = c :: reorder p s := by
  induction s generalizing p with
  | nil => simp [reorder, sortPending_starter hc]
  | cons d ds ih =>
    unfold reorder
    split
    · rw [sortPending_starter hc]; rfl
    · rw [List.cons_append, ih]

/-- A starter separates what comes before from what comes after. -/
theorem reorder_append_starter {c : Char} (hc : combiningClass c = 0) (p a b : Str) :
    reorder p (a ++ c :: b) = reorder p a ++ c :: reorder [] b := by
  induction a generalizing p with
  | nil => simp [reorder, hc, reorder_starter]
  | cons d ds ih =>
    simp only [List.cons_append]
    rw [reorder, reorder]
    split
    · rw [ih, List.append_assoc]
    · rw [ih]

/-- canonical order: classes do not decrease except at starters -/
abbrev CanonOrder (l : Str) : Prop :=
  l.IsChain (fun a b => combiningClass b = 0 ∨ combiningClass a ≤ combiningClass b)

theorem reorder_canon (p s : Str) : CanonOrder (reorder p s) := by
  have sorted : ∀ l, ByClass l → CanonOrder l := fun l h =>
    List.Pairwise.isChain (h.imp (fun h => .inr h))
  induction s generalizing p with
  | nil => exact sorted _ (sortPending_sorted p)
  | cons c cs ih =>
    unfold reorder
    split
    · rename_i hc
      rw [reorder_starter hc]
      have h2 : CanonOrder (c :: reorder [] cs) := by
        have := ih []
        rw [CanonOrder, List.isChain_cons]
        exact ⟨fun y _ => .inr (by omega), this⟩
      rw [CanonOrder, List.isChain_append]
      refine ⟨sorted _ (sortPending_sorted p), h2, ?_⟩
      intro x _ y hy
      simp at hy; subst hy
      exact .inl hc
    · exact ih _

theorem reorder_of_canon (p s : Str) (hp : ∀ c ∈ p, combiningClass c ≠ 0) (h : CanonOrder (p ++ s)) :
    reorder p s = p ++ s := by
  have sorted : ∀ l : Str, (∀ c ∈ l, combiningClass c ≠ 0) → CanonOrder l → ByClass l := by
    intro l hl hc
    have : l.IsChain (fun a b => combiningClass a ≤ combiningClass b) := by
      induction l with
      | nil => simp
      | cons a r ih =>
        rw [CanonOrder, List.isChain_cons] at hc
        rw [List.isChain_cons]
        refine ⟨?_, ih (fun c hc => hl c (by simp [hc])) hc.2⟩
        intro y hy
        have hm : y ∈ r := List.mem_of_mem_head? hy
        rcases hc.1 y hy with h | h
        · exact absurd h (hl y (by simp [hm]))
        · exact h
    have tr : IsTrans Char (fun a b => combiningClass a ≤ combiningClass b) := ⟨fun _ _ _ => Nat.le_trans⟩
    exact List.isChain_iff_pairwise.mp this
  induction s generalizing p with
  | nil => simp at h; simp [reorder, sortPending_of_sorted p (sorted p hp h)]
  | cons c cs ih =>
    unfold reorder
    split
    · rename_i hc
      have h' := List.isChain_append.mp h
      rw [reorder_starter hc, sortPending_of_sorted p (sorted p hp h'.1), ih [] (by simp)]
      · rfl
      · exact (List.isChain_cons.mp h'.2.1).2
    · rename_i hc
      rw [ih (p ++ [c])]
      · simp
      · intro d hd
        simp at hd
        rcases hd with hd | rfl
        · exact hp d hd
        · exact hc
      · simpa using h

/-! ### nfkd -/

theorem nfkd_perm (s : Str) : (nfkd s).Perm (s.flatMap decomposeCompatible) := reorder_perm [] _

theorem mem_nfkd {s : Str} {d : Char} : d ∈ nfkd s ↔ ∃ c ∈ s, d ∈ decomposeCompatible c := by
  rw [(nfkd_perm s).mem_iff, List.mem_flatMap]

@[simp] theorem nfkd_nil : nfkd [] = [] := rfl

theorem flatMap_fixed {s : Str} (h : ∀ c ∈ s, decomposeCompatible c = [c]) :
    s.flatMap decomposeCompatible = s := by
  induction s with
  | nil => rfl
  | cons c cs ih =>
    rw [List.flatMap_cons, h c (by simp), ih (fun d hd => h d (by simp [hd]))]; rfl

/-- Normalising twice is normalising once. -/
theorem nfkd_idem (s : Str) : nfkd (nfkd s) = nfkd s := by
  have h : (nfkd s).flatMap decomposeCompatible = nfkd s := by
    apply flatMap_fixed
    intro d hd
    obtain ⟨c, _, hc⟩ := mem_nfkd.mp hd
    exact decompose_fixed hc
  conv_lhs => rw [nfkd, h]
  exact reorder_of_canon [] _ (by simp) (reorder_canon _ _)

/-- An inert starter: stands for itself and has class 0. -/
def Inert (c : Char) : Prop := decomposeCompatible c = [c] ∧ combiningClass c = 0

theorem nfkd_append_inert {c : Char} (hc : Inert c) (a b : Str) :
    nfkd (a ++ c :: b) = nfkd a ++ c :: nfkd b := by
  simp only [nfkd, List.flatMap_append, List.flatMap_cons, hc.1]
  exact reorder_append_starter hc.2 [] _ _

theorem nfkd_inert_append {a : Str} (h : ∀ c ∈ a, Inert c) (b : Str) : nfkd (a ++ b) = a ++ nfkd b := by
  induction a with
  | nil => rfl
  | cons c cs ih =>
    have := nfkd_append_inert (h c (by simp)) [] (cs ++ b)
    simp at this
    rw [List.cons_append, this, ih (fun d hd => h d (by simp [hd]))]; rfl

theorem nfkd_inert {a : Str} (h : ∀ c ∈ a, Inert c) : nfkd a = a := by
  have := nfkd_inert_append h []
  simpa using this

theorem inert_ascii {c : Char} (h : c.toNat ≤ 0x7F) : Inert c := by
  refine ⟨by simp [decomposeCompatible, h], ?_⟩
  by_contra hne
  have := combiningClass_pos hne
  omega

theorem inert_han {c : Char} (h : isHan c = true) : Inert c := by
  simp [isHan] at h
  constructor
  · unfold decomposeCompatible
    rw [if_neg (by omega), if_neg (by simp [isHangulSyllable]; omega), lookup_isSome_of_mem]
    intro hm
    obtain ⟨q, hq, e⟩ := List.mem_map.mp hm
    have := entry_ok hq
    simp [entryOk, e] at this
    omega
  · by_contra hne
    have := combiningClass_pos hne
    omega

theorem inert_latin {c : Char} (h : isLowerLatin c = true) : Inert c := by
  simp [isLowerLatin] at h
  exact inert_ascii (by omega)

theorem inert_space : Inert ' ' := inert_ascii (by decide)

open Bip39 in
theorem inert_word (l : Language) {w : Str} (h : w ∈ l.wordlist) : ∀ c ∈ w, Inert c := by
  intro c hc
  cases l
  · rw [wordlist_english] at h; exact inert_latin ((english_word h).2 c hc)
  · rw [wordlist_chinese] at h
    obtain ⟨d, rfl, hd⟩ := chinese_word h
    simp at hc; subst hc; exact inert_han hd

/-- List words are their own normal form. -/
theorem nfkd_word (l : Bip39.Language) {w : Str} (h : w ∈ l.wordlist) : nfkd w = w :=
  nfkd_inert (inert_word l h)

theorem nfkd_join (ws : List Str) : nfkd (join [' '] ws) = join [' '] (ws.map nfkd) := by
  induction ws with
  | nil => rfl
  | cons a r ih =>
    cases r with
    | nil => rfl
    | cons b r =>
      rw [join_cons_cons, List.append_assoc, List.singleton_append, nfkd_append_inert inert_space, ih]
      simp only [List.map_cons]
      rw [join_cons_cons, List.append_assoc, List.singleton_append]

/-- If a piece without white space normalises to something with a space, then a character that is in
no word list appears as well. -/
theorem nfkd_space_alien {w : Str} (hw : NoWs w) {x : Char} (hx : x ∈ nfkd w) (hxs : isWhitespace x = true) :
    x = ' ' ∧ ∃ y ∈ nfkd w, alien y.toNat = true := by
  obtain ⟨c, hc, hxc⟩ := mem_nfkd.mp hx
  have hcw := hw c hc
  unfold decomposeCompatible at hxc
  split at hxc
  · simp at hxc; subst hxc; simp [hcw] at hxs
  · rename_i hc1
    split at hxc
    · rename_i hh
      have jamo : ∀ n, 0x1100 ≤ n → n ≤ 0x11FF → x = Char.ofNat n → False := by
        intro n h1 h2 e
        subst e
        have hv : (Char.ofNat n).toNat = n := toNat_ofNat (by omega) (by omega)
        simp [isWhitespace, hv] at hxs
        omega
      have hlt : c.toNat - 0xAC00 < 11172 := by
        simp [isHangulSyllable] at hh; omega
      simp only [decomposeHangul] at hxc
      generalize c.toNat - 0xAC00 = si at hxc hlt
      split at hxc
      · simp at hxc
        rcases hxc with h | h <;> exact (jamo _ (by omega) (by omega) h).elim
      · simp at hxc
        rcases hxc with h | h | h <;> exact (jamo _ (by omega) (by omega) h).elim
    · rename_i hh
      split at hxc
      · rename_i ds hl
        have hok := entry_ok (mem_of_lookup hl)
        simp only [List.mem_map] at hxc
        obtain ⟨n, hn, rfl⟩ := hxc
        simp only [entryOk, Bool.and_eq_true] at hok
        have hval := hok.1.2
        have h3 := hok.2
        rw [Char.ofNat_toNat, if_neg (by simp [hcw])] at h3
        rw [Bool.or_eq_true] at h3
        rcases h3 with h3 | h3
        · have := List.all_eq_true.mp h3 n hn
          simp [hxs] at this
        · simp only [Bool.and_eq_true] at h3
          have hsp := List.all_eq_true.mp h3.2 n hn
          simp [hxs] at hsp
          subst hsp
          refine ⟨by decide, ?_⟩
          obtain ⟨m, hm, ha⟩ := List.any_eq_true.mp h3.1
          have hm' := List.all_eq_true.mp hval m hm
          simp at hm'
          have hv : (Char.ofNat m).toNat = m := toNat_ofNat (by omega) (by omega)
          refine ⟨Char.ofNat m, ?_, by rw [hv]; exact ha⟩
          rw [mem_nfkd]
          refine ⟨c, hc, ?_⟩
          unfold decomposeCompatible
          rw [if_neg hc1, if_neg hh, hl]
          exact List.mem_map.mpr ⟨m, hm, rfl⟩
      · simp at hxc; subst hxc; simp [hcw] at hxs

/-- Characters of list words are not alien. -/
theorem word_not_alien (l : Bip39.Language) {w : Str} (h : w ∈ l.wordlist) {c : Char} (hc : c ∈ w) :
    alien c.toNat = false := by
  cases l
  · rw [Bip39.wordlist_english] at h
    have := (Bip39.english_word h).2 c hc
    simp [isLowerLatin] at this
    simp [alien]; omega
  · rw [Bip39.wordlist_chinese] at h
    obtain ⟨d, rfl, hd⟩ := Bip39.chinese_word h
    simp at hc; subst hc
    simp [isHan] at hd
    simp [alien]; omega

end Kms
