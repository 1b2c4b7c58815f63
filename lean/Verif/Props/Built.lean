import Verif.Spec.Built
import Verif.Proofs.ThreadsBuilt
import Verif.Proofs.AllLanguages
import Verif.Proofs.Spells
import Verif.Props.Threads
/-
C118: word lists and maps are built on demand only.
-/
namespace Kms.Props
open Kms.Bip39 Kms.Bip39.All Kms.Bip39.Threads Kms.Spec.Threads

theorem bind_needs {α β : Type} (x : Comp α) (k : α → Comp β) (d : Cell) :
    (x.bind k).needs d ↔ x.needs d ∨ (k x.ideal).needs d := by
  induction x with
  | done a => simp [Comp.bind, Comp.needs, Comp.ideal]
  | force c next ih =>
    show (d ∈ parts c ∨ ((next (valueOf c)).bind k).needs d) ↔ _
    rw [ih, Comp.needs, Comp.ideal, or_assoc]

theorem done_needs {α : Type} (a : α) (d : Cell) : (Comp.done a).needs d ↔ False := Iff.rfl

theorem wordlistC_needs (l : Lang) (d : Cell) : (wordlistC l).needs d ↔ d = .list l := by
  cases l <;> simp [wordlistC, Comp.needs, wordlistCell, parts, valueOf]

theorem mapC_needs (l : Lang) (d : Cell) : (mapC (.map l)).needs d ↔ mapAndList l d := by
  simp [mapC, Comp.needs, parts, valueOf, mapAndList]

theorem wordmapC_needs (l : Lang) (d : Cell) : (wordmapC l).needs d ↔ mapAndList l d := by
  have : wordmapC l = mapC (.map l) := by cases l <;> rfl
  rw [this, mapC_needs]

theorem unchecked_needs (H : Hashes) (e : Bytes) (l : Lang) (d : Cell) :
    (fromEntropyUncheckedC H e l).needs d ↔ d = .list l := by
  refine (bind_needs _ _ d).trans ?_
  rw [wordlistC_needs]
  exact or_iff_left id

theorem toEntropy_needs (H : Hashes) (p : Str) (l : Lang) (d : Cell) :
    (phraseToEntropyC H p l).needs d ↔ mapAndList l d := by
  refine (bind_needs _ _ d).trans ?_
  rw [wordmapC_needs]
  exact or_iff_left id

theorem fromEntropy_needs (H : Hashes) (e : Bytes) (l : Lang) (d : Cell) :
    (fromEntropyC H e l).needs d ↔ e.length * 8 % 2 ^ 64 ∈ [128, 160, 192, 224, 256] ∧ d = .list l := by
  unfold fromEntropyC usizeMul
  generalize e.length * 8 % 2 ^ 64 = k
  by_cases h : k ∈ [128, 160, 192, 224, 256]
  · have : ∃ t, MnemonicType.forKeySize k = .ok t := by
      simp only [List.mem_cons, List.not_mem_nil, or_false] at h
      rcases h with h | h | h | h | h <;> subst h <;> exact ⟨_, rfl⟩
    obtain ⟨t, ht⟩ := this
    rw [ht]
    simp only [unchecked_needs, h, true_and]
  · have : MnemonicType.forKeySize k = .err (.invalidKeysize k) := by
      simp only [List.mem_cons, List.not_mem_nil, or_false, not_or] at h
      unfold MnemonicType.forKeySize
      split <;> simp_all
    rw [this]
    exact iff_of_false id fun h' => h h'.1

set_option linter.constructorNameAsVariable false in -- the linter evaluates the types of variables
theorem language_needs (p : Str) (d : Cell) : (languageFromPhraseC p).needs d ↔ uses (.languageFromPhrase p) d := by
  simp only [uses, spells_iff]
  unfold languageFromPhraseC
  cases splitWhitespace p with
  | nil => simp only [reduceCtorEq, false_and, exists_false]; exact Iff.rfl
  | cons w ws =>
    simp only [List.cons.injEq]
    have h1 := (wordmapC_ideal .english).1
    have h2 := (wordmapC_ideal .chineseSimplified).1
    have e1 : mapC (.map .english) = wordmapC .english := rfl
    have e2 : mapC (.map .chineseSimplified) = wordmapC .chineseSimplified := rfl
    refine (bind_needs _ _ d).trans ?_
    rw [mapC_needs, e1, h1]
    have hmem := All.getBits_isOk_iff .english w
    rw [All.wordlist_eq] at hmem
    constructor
    · intro h
      refine ⟨w, ws, ⟨rfl, rfl⟩, h.imp_right fun h => ?_⟩
      split at h
      · exact h.elim
      · rename_i hw
        refine ⟨mt hmem.mpr hw, ?_⟩
        have h := (bind_needs _ _ d).mp h
        rw [mapC_needs, e2, h2] at h
        refine h.resolve_right fun h => ?_
        split at h <;> exact h
    · rintro ⟨w', ws', ⟨rfl, rfl⟩, h⟩
      refine h.imp_right fun h => ?_
      have hw : ¬ (Language.getBits Lang.english.wordmap w).isOk = true := mt hmem.mp h.1
      rw [if_neg hw]
      exact (bind_needs _ _ d).mpr (.inl ((mapC_needs _ _).mpr h.2))

theorem code_needs (H : Hashes) (c : Call) (d : Cell) : (c.code H).needs d ↔ uses c d := by
  cases c with
  | wordlist l => exact wordlistC_needs l d
  | wordmap l => exact wordmapC_needs l d
  | languageFromPhrase p => exact language_needs p d
  | new rng t l => exact unchecked_needs H _ l d
  | fromEntropy e l => exact fromEntropy_needs H e l d
  | fromPhrase p l =>
    refine (bind_needs _ _ d).trans ?_
    rw [toEntropy_needs]
    exact or_iff_left id
  | validate p l =>
    refine (bind_needs _ _ d).trans ?_
    rw [toEntropy_needs]
    exact or_iff_left id

theorem client_needs {α : Type} (H : Hashes) (p : Client α) (d : Cell) : (p.code H).needs d ↔ threadUses H p d := by
  induction p with
  | done a => exact Iff.rfl
  | call c next ih =>
    refine (bind_needs _ _ d).trans ?_
    rw [code_needs, (code_ideal H c).1, ih]
    rfl

/-- **C118** Threads call the functions that read word lists, as in C116, in any order of steps.  At every point of every execution, a
word list or map that has been built, or whose building has begun, is one that a call of some thread needs; and what the calls of
a thread need has been built once by the time the thread has ended. -/
theorem C118_built_on_demand {α : Type} (H : Hashes) (debug : Bool) (n : Nat) (progs : Fin n → Client α) (sched : List (Fin n))
    (s : State α n) (h : run debug (start fun t => (progs t).code H) sched = some s) (d : Cell) :
    (s.builds d ≠ 0 → ∃ t, threadUses H (progs t) d) ∧
    (∀ t a, Ended (s.threads t) a → threadUses H (progs t) d → s.builds d = 1 ∧ s.cells d ≠ .incomplete) := by
  have i0 := inv_start fun t => (progs t).code H
  have inv := inv_run i0 h
  obtain ⟨g, b⟩ := built_start fun t => (progs t).code H
  have b := built_run i0 g b h
  constructor
  · intro hb
    rw [inv.once d] at hb
    cases hc : s.closures d with
    | true => rw [hc] at hb; exact absurd rfl hb
    | false =>
      obtain ⟨t, ht⟩ := b.some_needs d hc
      exact ⟨t, (client_needs H _ d).mp ht⟩
  · intro t a ha hu
    have hc : s.closures d = false := by
      rcases b.left t d ((client_needs H _ d).mpr hu) with hl | hl
      · rw [ha.2] at hl; exact hl.elim
      · exact hl
    refine ⟨by rw [inv.once d, hc]; rfl, fun e => ?_⟩
    rw [(inv.avail d).mpr e] at hc
    cases hc

/-- **C118** When no thread can step any more, the lists and maps that calls needed have been built once and the others never. -/
theorem C118_in_the_end {α : Type} (H : Hashes) (debug : Bool) (n : Nat) (progs : Fin n → Client α) (sched : List (Fin n))
    (s : State α n) (h : run debug (start fun t => (progs t).code H) sched = some s) (hs : ∀ u, step debug s u = none) (d : Cell) :
    (s.builds d = 1 ↔ ∃ t, threadUses H (progs t) d) ∧ (s.builds d = 0 ↔ ¬ ∃ t, threadUses H (progs t) d) := by
  have h1 := (C118_built_on_demand H debug n progs sched s h d).1
  have h2 : (∃ t, threadUses H (progs t) d) → s.builds d = 1 := fun ⟨t, ht⟩ =>
    ((C118_built_on_demand H debug n progs sched s h d).2 t _ (C116_all_end H debug n progs sched s h hs t) ht).1
  refine ⟨⟨fun e => h1 (by omega), h2⟩, ⟨fun e hn => ?_, fun hn => ?_⟩⟩
  · have := h2 hn; omega
  · by_contra hb; exact hn (h1 hb)

/-- One thread fetches the Korean map and another validates a Korean phrase, which has to wait.  Both end; the Korean list and
map have been built once, and nothing else. -/
def koreanClients (p : Str) : Fin 2 → Client Bool := fun t =>
  if t = 0 then .call (.wordmap .korean) fun _ => .done true else .call (.validate p .korean) fun r => .done r.isOk

example (H : Hashes) (p : Str) : ∃ s s', run false (start fun t => (koreanClients p t).code H) [0, 1, 1, 1] = some s ∧
    (step false s 0).isNone ∧ run false s [1, 1, 1, 1, 0] = some s' ∧ (∀ u, step false s' u = none) ∧
    s'.builds (.map .korean) = 1 ∧ s'.builds (.list .korean) = 1 ∧ s'.builds (.list .english) = 0 :=
  ⟨_, _, rfl, rfl, rfl, fun u => by fin_cases u <;> rfl, rfl, rfl, rfl⟩

/-- Entropy of a wrong size builds nothing. -/
example (d : Cell) : ¬ uses (.fromEntropy [1, 2, 3] .korean) d := by simp [uses]

end Kms.Props
