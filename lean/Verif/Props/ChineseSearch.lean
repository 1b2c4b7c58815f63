import Verif.Props.Language
/-
C13, exactly: what a search for a Chinese word finds.  The two binary searches of the standard library are run on all the
2048 words at once, in the kernel.
-/
namespace Kms.Bip39.Language

/-- `binarySearchLoop` on numbers -/
def loopN (cs : List Nat) (k : Nat) : Nat → Nat → Nat → Nat ⊕ Nat
  | 0, left, _ => .inr left
  | fuel + 1, left, right =>
    if left < right then
      if cs.getD (left + (right - left) / 2) 0 < k then loopN cs k fuel (left + (right - left) / 2 + 1) right
      else if k < cs.getD (left + (right - left) / 2) 0 then loopN cs k fuel left (left + (right - left) / 2)
      else .inl (left + (right - left) / 2)
    else .inr left

/-- `binarySearchLoop'` on numbers -/
def loopN' (cs : List Nat) (k : Nat) : Nat → Nat → Nat → Nat
  | 0, base, _ => base
  | fuel + 1, base, size =>
    if size > 1 then
      loopN' cs k fuel (if k < cs.getD (base + size / 2) 0 then base else base + size / 2) (size - size / 2)
    else base

/-- The number of a word of one character. -/
def code (w : Str) : Nat := (w.headD '\x00').toNat

theorem strCmp_code {wl : WordList} (h1 : ∀ w ∈ wl, ∃ c, w = [c]) (c : Char) (hc : 0 < c.toNat) (i : Nat) :
    (strCmp (wl.getD i []) [c] = .lt ↔ (wl.map code).getD i 0 < c.toNat) ∧
    (strCmp (wl.getD i []) [c] = .gt ↔ c.toNat < (wl.map code).getD i 0) := by
  by_cases hi : i < wl.length
  · obtain ⟨d, hd⟩ := h1 wl[i] (List.getElem_mem hi)
    simp only [List.getD_eq_getElem?_getD, List.getElem?_map, List.getElem?_eq_getElem hi, Option.getD_some, Option.map_some, hd,
      code, List.headD_cons, strCmp]
    constructor
    · split
      · simp [*]
      · split <;> simp <;> omega
    · split
      · simp; omega
      · split <;> simp_all
  · simp only [List.getD_eq_getElem?_getD, List.getElem?_map, List.getElem?_eq_none (Nat.le_of_not_lt hi), Option.getD_none,
      Option.map_none, strCmp]
    simp [hc]

theorem loop_code {wl : WordList} (h1 : ∀ w ∈ wl, ∃ c, w = [c]) (c : Char) (hc : 0 < c.toNat) (fuel left right : Nat) :
    binarySearchLoop wl [c] fuel left right = loopN (wl.map code) c.toNat fuel left right := by
  induction fuel generalizing left right with
  | zero => rfl
  | succ f ih =>
    rw [binarySearchLoop, loopN]
    obtain ⟨hl, hg⟩ := strCmp_code h1 c hc (left + (right - left) / 2)
    split
    · rw [← ih, ← ih]
      cases h : strCmp (wl.getD (left + (right - left) / 2) []) [c] with
      | lt => simp only [h]; rw [if_pos (hl.1 h)]
      | gt =>
        simp only [h]
        rw [if_neg (fun x => by rw [hl.2 x] at h; simp at h), if_pos (hg.1 h)]
      | eq =>
        simp only [h]
        rw [if_neg (fun x => by rw [hl.2 x] at h; simp at h), if_neg (fun x => by rw [hg.2 x] at h; simp at h)]
    · rfl

theorem loop_code' {wl : WordList} (h1 : ∀ w ∈ wl, ∃ c, w = [c]) (c : Char) (hc : 0 < c.toNat) (fuel base size : Nat) :
    binarySearchLoop' wl [c] fuel base size = loopN' (wl.map code) c.toNat fuel base size := by
  induction fuel generalizing base size with
  | zero => rfl
  | succ f ih =>
    rw [binarySearchLoop', loopN']
    obtain ⟨-, hg⟩ := strCmp_code h1 c hc (base + size / 2)
    split
    · rw [← ih]
      simp only [hg]
    · rfl

/-- The results of `loopN` for many keys at once, splitting the keys at every probe. -/
def sieve (cs : List Nat) : Nat → Nat → Nat → List Nat → List (Nat × (Nat ⊕ Nat))
  | 0, left, _, qs => qs.map (fun q => (q, .inr left))
  | fuel + 1, left, right, qs =>
    if qs.isEmpty then [] else
    if left < right then
      (sieve cs fuel (left + (right - left) / 2 + 1) right
          (qs.filter (fun q => decide (cs.getD (left + (right - left) / 2) 0 < q)))) ++
      (sieve cs fuel left (left + (right - left) / 2)
          (qs.filter (fun q => decide (q < cs.getD (left + (right - left) / 2) 0)))) ++
      (qs.filter (fun q => decide (q = cs.getD (left + (right - left) / 2) 0))).map (fun q => (q, .inl (left + (right - left) / 2)))
    else qs.map (fun q => (q, .inr left))

theorem sieve_mem (cs : List Nat) (fuel left right : Nat) (qs : List Nat) (q : Nat) (h : q ∈ qs) :
    (q, loopN cs q fuel left right) ∈ sieve cs fuel left right qs := by
  induction fuel generalizing left right qs with
  | zero => exact List.mem_map.2 ⟨q, h, rfl⟩
  | succ f ih =>
    rw [sieve, loopN, if_neg (by cases qs <;> simp_all)]
    split
    · simp only [List.mem_append]
      split
      · exact .inl (.inl (ih _ _ _ (by rw [List.mem_filter]; exact ⟨h, by simpa⟩)))
      · split
        · exact .inl (.inr (ih _ _ _ (by rw [List.mem_filter]; exact ⟨h, by simpa⟩)))
        · exact .inr (List.mem_map.2 ⟨q, by rw [List.mem_filter]; exact ⟨h, decide_eq_true (by omega)⟩, rfl⟩)
    · exact List.mem_map.2 ⟨q, h, rfl⟩

/-- The results of `loopN'` for many keys at once. -/
def sieve' (cs : List Nat) : Nat → Nat → Nat → List Nat → List (Nat × Nat)
  | 0, base, _, qs => qs.map (fun q => (q, base))
  | fuel + 1, base, size, qs =>
    if qs.isEmpty then [] else
    if size > 1 then
      sieve' cs fuel base (size - size / 2) (qs.filter (fun q => decide (q < cs.getD (base + size / 2) 0))) ++
      sieve' cs fuel (base + size / 2) (size - size / 2) (qs.filter (fun q => decide (¬ q < cs.getD (base + size / 2) 0)))
    else qs.map (fun q => (q, base))

theorem sieve_mem' (cs : List Nat) (fuel base size : Nat) (qs : List Nat) (q : Nat) (h : q ∈ qs) :
    (q, loopN' cs q fuel base size) ∈ sieve' cs fuel base size qs := by
  induction fuel generalizing base size qs with
  | zero => exact List.mem_map.2 ⟨q, h, rfl⟩
  | succ f ih =>
    rw [sieve', loopN', if_neg (by cases qs <;> simp_all)]
    split
    · simp only [List.mem_append]
      split
      · exact .inl (ih _ _ _ (by rw [List.mem_filter]; exact ⟨h, by simpa⟩))
      · exact .inr (ih _ _ _ (by rw [List.mem_filter]; exact ⟨h, decide_eq_true ‹¬ _›⟩))
    · exact List.mem_map.2 ⟨q, h, rfl⟩

/-- The words of the Chinese list, as numbers -/
def codes : List Nat := Data.chineseSimplified.map code

/-- The words that are found by the search of the earlier standard libraries, and by that of Rust 1.82 on -/
def foundOld : Str := ['一', '三', '之', '二', '取', '响', '团', '存', '官', '德', '推', '析', '模', '熟', '砂', '祸', '艇', '韦']
def foundNew : Str := ['一', '三', '之', '二', '团', '官', '德']

theorem run_old : (sieve codes 2049 0 2048 codes).all
    (fun p => (codes[unwrapOrElseId p.2]? == some p.1) == (foundOld.map Char.toNat).contains p.1) = true := by decide +kernel

theorem run_new : (sieve' codes 2049 0 2048 codes).all
    (fun p => (codes[if codes.getD p.2 0 < p.1 then p.2 + 1 else p.2]? == some p.1) == (foundNew.map Char.toNat).contains p.1)
      = true := by decide +kernel

theorem char_pos {c : Char} (h : [c] ∈ Data.chineseSimplified) : 0 < c.toNat := by
  obtain ⟨d, hd, hu⟩ := chinese_word (show [c] ∈ Spec.words .chineseSimplified from h)
  cases hd
  rcases Nat.eq_zero_or_pos c.toNat with h0 | h0
  · rw [show c = '\x00' from Char.toNat_inj.1 h0] at hu
    exact absurd hu (by decide)
  · exact h0

theorem codes_get (c : Char) (i : Nat) : codes[i]? = some c.toNat ↔ Data.chineseSimplified[i]? = some [c] := by
  unfold codes
  rw [List.getElem?_map, Option.map_eq_some_iff]
  constructor
  · rintro ⟨w, hw, hc⟩
    obtain ⟨d, rfl, -⟩ := chinese_word (show w ∈ Spec.words .chineseSimplified from List.mem_of_getElem? hw)
    rw [hw]
    simp only [code, List.headD_cons] at hc
    rw [Char.toNat_inj.1 hc]
  · intro h
    exact ⟨_, h, rfl⟩

theorem mem_map_toNat (c : Char) (l : Str) : (l.map Char.toNat).contains c.toNat = true ↔ c ∈ l := by
  rw [List.contains_iff_mem, List.mem_map]
  constructor
  · rintro ⟨d, hd, h⟩
    rwa [← Char.toNat_inj.1 h]
  · intro h
    exact ⟨c, h, rfl⟩

theorem code_mem {c : Char} (h : [c] ∈ Data.chineseSimplified) : c.toNat ∈ codes :=
  List.mem_map.2 ⟨_, h, rfl⟩

theorem start_old {c : Char} (h : [c] ∈ Data.chineseSimplified) :
    Data.chineseSimplified[unwrapOrElseId (binarySearch Data.chineseSimplified [c])]? = some [c] ↔ c ∈ foundOld := by
  have h1 : ∀ w ∈ Data.chineseSimplified, ∃ c, w = [c] := fun w hw =>
    let ⟨d, hd, _⟩ := chinese_word (show w ∈ Spec.words .chineseSimplified from hw); ⟨d, hd⟩
  have hl : Data.chineseSimplified.length = 2048 := by
    have := wordlist_length .chineseSimplified
    rwa [wordlist_chinese] at this
  have := List.all_eq_true.1 run_old _ (sieve_mem codes 2049 0 2048 codes _ (code_mem h))
  simp only [beq_iff_eq] at this
  rw [binarySearch, hl, loop_code h1 c (char_pos h), ← codes_get, ← mem_map_toNat, ← this, beq_iff_eq]
  exact Iff.rfl

theorem start_new {c : Char} (h : [c] ∈ Data.chineseSimplified) :
    Data.chineseSimplified[unwrapOrElseId (binarySearch' Data.chineseSimplified [c])]? = some [c] ↔ c ∈ foundNew := by
  have h1 : ∀ w ∈ Data.chineseSimplified, ∃ c, w = [c] := fun w hw =>
    let ⟨d, hd, _⟩ := chinese_word (show w ∈ Spec.words .chineseSimplified from hw); ⟨d, hd⟩
  have hl : Data.chineseSimplified.length = 2048 := by
    have := wordlist_length .chineseSimplified
    rwa [wordlist_chinese] at this
  have hrun := List.all_eq_true.1 run_new _ (sieve_mem' codes 2049 0 2048 codes _ (code_mem h))
  simp only [beq_iff_eq] at hrun
  have hst : unwrapOrElseId (binarySearch' Data.chineseSimplified [c]) =
      if codes.getD (loopN' codes c.toNat 2049 0 2048) 0 < c.toNat then loopN' codes c.toNat 2049 0 2048 + 1
      else loopN' codes c.toNat 2049 0 2048 := by
    have hlt := (strCmp_code h1 c (char_pos h) (loopN' codes c.toNat 2049 0 2048)).1
    rw [← codes] at hlt
    unfold binarySearch'
    rw [hl, if_neg (by omega)]
    simp only
    rw [loop_code' h1 c (char_pos h), ← codes]
    generalize loopN' codes c.toNat 2049 0 2048 = b at hlt ⊢
    generalize codes.getD b 0 = d at hlt ⊢
    generalize strCmp (Data.chineseSimplified.getD b []) [c] = o at hlt ⊢
    cases o with
    | lt => rw [if_pos (hlt.1 rfl)]; rfl
    | eq => rw [if_neg (fun x => Ordering.noConfusion (hlt.2 x))]; rfl
    | gt => rw [if_neg (fun x => Ordering.noConfusion (hlt.2 x))]; rfl
  rw [hst, ← codes_get, ← mem_map_toNat, ← hrun, beq_iff_eq]

end Kms.Bip39.Language

namespace Kms.Props
open Kms.Bip39 Kms.Bip39.Language

/-- C13, the part that holds (full statement: the answer is `(Spec.words .chineseSimplified).filter (q <+: ·)`;
missing: completeness for most queries that are list words).  The search never panics, the answer is a contiguous
stretch of the list in list order, every word in it starts with the query, the answer is exact for every query that
is not itself a list word (the empty one included).  A list word is found, and then alone, exactly when it is one of the 18
words below with the `binary_search` before Rust 1.82, or one of the 7 words below with the later one; for each of the other
words the answer is empty. -/
theorem C13_chinese_prefix_search_partial (search : WordList → Str → Nat ⊕ Nat)
    (hs : search = binarySearch ∨ search = binarySearch') (q : Str) :
    ∃ r, getWordsByPrefix search (wordlist .chineseSimplified) q = .ok r ∧
      r <:+: Spec.words .chineseSimplified ∧
      (∀ w ∈ r, q <+: w) ∧
      (q ∉ Spec.words .chineseSimplified →
        r = (Spec.words .chineseSimplified).filter (fun w => decide (q <+: w))) ∧
      (q ∈ Spec.words .chineseSimplified → search = binarySearch →
        r = if q ∈ [['一'], ['三'], ['之'], ['二'], ['取'], ['响'], ['团'], ['存'], ['官'], ['德'], ['推'], ['析'], ['模'],
          ['熟'], ['砂'], ['祸'], ['艇'], ['韦']] then [q] else []) ∧
      (q ∈ Spec.words .chineseSimplified → search = binarySearch' →
        r = if q ∈ [['一'], ['三'], ['之'], ['二'], ['团'], ['官'], ['德']] then [q] else []) := by
  obtain ⟨r, hr, h1, h2, h3, h4⟩ := chinese_search_shape search hs q
  have hle : unwrapOrElseId (search (wordlist .chineseSimplified) q) ≤ (wordlist .chineseSimplified).length := by
    rcases hs with rfl | rfl
    · exact binarySearch_le _ _
    · exact binarySearch'_le _ _
  have he := getWordsByPrefix_eq search _ q _ rfl hle
  rw [hr] at he
  injection he with he
  have key : q ∈ Spec.words .chineseSimplified →
      ((wordlist .chineseSimplified)[unwrapOrElseId (search (wordlist .chineseSimplified) q)]? = some q ↔ r = [q]) := by
    intro hq
    obtain ⟨c, rfl, -⟩ := chinese_word hq
    constructor
    · intro h
      rcases h4 hq with h' | h'
      · rw [h', eq_comm] at he
        obtain ⟨hlt, hg⟩ := List.getElem?_eq_some_iff.1 h
        rw [List.drop_eq_getElem_cons hlt, hg, List.takeWhile_cons_of_pos (by simp)] at he
        simp at he
      · exact h'
    · intro h
      rw [h] at he
      cases hd : List.drop (unwrapOrElseId (search (wordlist .chineseSimplified) [c])) (wordlist .chineseSimplified) with
      | nil => rw [hd] at he; simp at he
      | cons w t =>
        rw [hd, List.takeWhile_cons] at he
        split at he
        · injection he with he
          rw [← List.head?_drop, hd, he]
          rfl
        · simp at he
  refine ⟨r, hr, h1, h2, h3, ?_, ?_⟩
  · rintro hq rfl
    have := key hq
    obtain ⟨c, rfl, -⟩ := chinese_word hq
    rw [wordlist_chinese, start_old hq] at this
    split
    · rename_i hm
      exact this.1 (by simpa [foundOld] using hm)
    · rename_i hm
      exact (h4 hq).resolve_right (fun h => hm (by simpa [foundOld] using this.2 h))
  · rintro hq rfl
    have := key hq
    obtain ⟨c, rfl, -⟩ := chinese_word hq
    rw [wordlist_chinese, start_new hq] at this
    split
    · rename_i hm
      exact this.1 (by simpa [foundNew] using hm)
    · rename_i hm
      exact (h4 hq).resolve_right (fun h => hm (by simpa [foundNew] using this.2 h))

/-- 取 is found by the earlier search and not by the later one. -/
example : ['取'] ∈ Spec.words .chineseSimplified ∧
    getWordsByPrefix binarySearch (wordlist .chineseSimplified) ['取'] = .ok [['取']] ∧
    getWordsByPrefix binarySearch' (wordlist .chineseSimplified) ['取'] = .ok [] := by
  rw [wordlist_chinese]
  refine ⟨?_, ?_, ?_⟩ <;> decide +kernel

end Kms.Props
