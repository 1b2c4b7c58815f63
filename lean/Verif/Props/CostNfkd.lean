import Verif.Proofs.CostNfkd
import Verif.Props.Cost
/-
C113: how much longer normalised text is, and how long `from_phrase` and `Seed::new` take.
-/
namespace Kms.Props
open Kms.Bip39 Kms.Spec

/-- **C113** The normal form of a text has at least as many characters and at most 18 times as many, at most six for each
byte, and at most 11 times as many bytes. -/
theorem C113_normal_form_growth (s t : Str) (h : IsNfkd s t) :
    s.length ≤ t.length ∧ t.length ≤ 18 * s.length ∧ t.length ≤ 6 * (utf8Of s).length ∧
    (utf8Of t).length ≤ 11 * (utf8Of s).length := by
  rw [isNfkd_iff] at h
  subst h
  exact nfkd_growth s

theorem log2_mono {a b : Nat} (h : a ≤ b) : a.log2 ≤ b.log2 := by
  rw [Nat.log2_eq_log_two, Nat.log2_eq_log_two]
  exact Nat.log_mono_right h

theorem sort_bound {sort : Nat → Nat} {A : Nat} (hs : ∀ k, sort k ≤ A * (k * (k.log2 + 1))) (M k : Nat) (hk : k ≤ M) :
    sort k ≤ A * (M.log2 + 1) * k := by
  refine (hs k).trans ?_
  calc A * (k * (k.log2 + 1)) ≤ A * (k * (M.log2 + 1)) :=
        Nat.mul_le_mul_left _ (Nat.mul_le_mul_left _ (Nat.add_le_add_right (log2_mono hk) 1))
    _ = _ := by ring

/-- **C113** Reading a phrase of N bytes takes, whatever it says, O(N log N) steps, if sorting k elements takes O(k log k)
steps; the counted function returns what the function returns. -/
theorem C113_from_phrase_steps (sort : Nat → Nat) (A : Nat) (hs : ∀ k, sort k ≤ A * (k * (k.log2 + 1))) (H : Hashes) (s : Str)
    (lang : Language) :
    (Mnemonic.fromPhraseC sort H s lang).val = Mnemonic.fromPhrase H s lang ∧
    (Mnemonic.fromPhraseC sort H s lang).steps ≤
      (70 + 6 * (A * ((6 * (utf8Of s).length).log2 + 1))) * (utf8Of s).length + 37 :=
  ⟨Mnemonic.fromPhraseC_val sort H s lang, Mnemonic.fromPhraseC_steps H s lang (sort_bound hs _)⟩

/-- **C113** So does making a seed with a passphrase of N bytes, besides the fixed cost of 2048 rounds and two steps for each
byte of the phrase. -/
theorem C113_seed_steps (sort : Nat → Nat) (A : Nat) (hs : ∀ k, sort k ≤ A * (k * (k.log2 + 1))) (H : Hashes) (m : Mnemonic)
    (pw : Str) :
    let N := (utf8Of pw).length + 8
    (Seed.newC sort H m pw).val = Seed.new H m pw ∧
    (Seed.newC sort H m pw).steps ≤ (48 + 6 * (A * ((6 * N).log2 + 1))) * N + 2 * m.asBytes.length + 393412 :=
  ⟨Seed.newC_val sort H m pw, Seed.newC_steps H m pw (sort_bound hs _)⟩

/-- **C113** The factors 18 and 11 are reached by texts of every length: one Arabic ligature, repeated. -/
theorem C113_growth_is_sharp (k : Nat) : ∃ t, IsNfkd (List.replicate k (Char.ofNat 0xFDFA)) t ∧
    t.length = 18 * k ∧ (utf8Of t).length = 11 * (utf8Of (List.replicate k (Char.ofNat 0xFDFA))).length := by
  refine ⟨_, isNfkd_iff.2 rfl, ?_⟩
  have hp := reorder_perm [] ((List.replicate k (Char.ofNat 0xFDFA)).flatMap decomposeCompatible)
  rw [List.nil_append] at hp
  have e : utf8Of = utf8 := rfl
  unfold nfkd
  rw [hp.length_eq, e, utf8_perm hp]
  clear hp
  induction k with
  | zero => exact ⟨rfl, rfl⟩
  | succ k ih =>
    have h1 : (decomposeCompatible (Char.ofNat 0xFDFA)).length = 18 := by decide +kernel
    have h2 : (utf8 (decomposeCompatible (Char.ofNat 0xFDFA))).length = 33 := by decide +kernel
    have h3 : (String.utf8EncodeChar (Char.ofNat 0xFDFA)).length = 3 := by decide +kernel
    have e2 : ∀ a b : Str, utf8 (a ++ b) = utf8 a ++ utf8 b := fun a b => by unfold utf8; rw [List.flatMap_append]
    rw [List.replicate_succ, List.flatMap_cons, e2, utf8_cons, List.length_append, List.length_append, List.length_append, h1, h2, h3]
    omega

-- a cost of sorting that meets the assumption
example : ∃ sort : Nat → Nat, sort 8 = 32 ∧ ∀ k, sort k ≤ 1 * (k * (k.log2 + 1)) :=
  ⟨fun k => k * (k.log2 + 1), by decide +kernel, fun k => by simp⟩

-- the steps are really there: a word of k combining marks is sorted as a whole
example (sort : Nat → Nat) (k : Nat) :
    (reorderC sort [] (List.replicate k (Char.ofNat 0x301))).steps = sort k + 3 * k := by
  have key : ∀ p : Str, (reorderC sort p (List.replicate k (Char.ofNat 0x301))).steps = sort (p.length + k) + 2 * p.length + 3 * k := by
    induction k with
    | zero => intro p; simp [reorderC]
    | succ k ih =>
      intro p
      have h : combiningClass (Char.ofNat 0x301) ≠ 0 := by decide +kernel
      rw [List.replicate_succ, reorderC, Counted.steps_bind, if_neg h, ih]
      simp only [Counted.steps_ticks, List.length_append, List.length_singleton]
      rw [Nat.add_assoc p.length 1 k, Nat.add_comm 1 k]
      omega
  simpa using key []

end Kms.Props
