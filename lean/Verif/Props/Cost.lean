import Verif.Proofs.Cost
/-
C109: text from outside is read in time proportional to its length.
-/
namespace Kms.Props
open Kms Kms.Bip32 Kms.Bip39

/-- C109: reading an extended key, reading a derivation path and validating a phrase, with steps counted as described in
`Verif.Model.Cost`.  The counted functions return what the functions return, whatever the hash functions are and whatever
the text is; and the number of steps is at most
* for an extended key, one per character and 10000 more, however long the text (the buffer holds 82 bytes, so a text that
  stands for a longer number is given up after 112 characters that count);
* for a child number, one per character and one more;
* for a derivation path, two per character and two more;
* for a phrase, three per byte and 36 more. -/
theorem C109_reading_is_linear (H : Hashes) (text : Str) (lang : Language) :
    ((ExtendedKey.fromStrC H text).val = ExtendedKey.fromStr H text ∧
      (ExtendedKey.fromStrC H text).steps ≤ text.length + 10000) ∧
    ((ChildNumber.fromStrC text).val = ChildNumber.fromStr text ∧ (ChildNumber.fromStrC text).steps ≤ text.length + 1) ∧
    ((DerivationPath.fromStrC text).val = DerivationPath.fromStr text ∧
      (DerivationPath.fromStrC text).steps ≤ 2 * text.length + 2) ∧
    ((Mnemonic.validateC H text lang).val = Mnemonic.validate H text lang ∧
      (Mnemonic.validateC H text lang).steps ≤ 3 * (utf8 text).length + 36) := by
  refine ⟨⟨ExtendedKey.fromStrC_val H text, ExtendedKey.fromStrC_steps H text⟩,
    ⟨ChildNumber.fromStrC_val text, ChildNumber.fromStrC_steps text⟩,
    ⟨DerivationPath.fromStrC_val text, DerivationPath.fromStrC_steps text⟩, ?_, ?_⟩
  · unfold Mnemonic.validateC Mnemonic.validate
    rw [Counted.val_andThen, Mnemonic.phraseToEntropyC_val]
    rfl
  · unfold Mnemonic.validateC
    exact le_trans (Counted.steps_andThen_le _ _ 0 (fun _ _ => by simp)) (Mnemonic.phraseToEntropyC_steps H text lang)

/-- The steps are really there: every character of a run of `1`s is looked at. -/
theorem ones_are_read (cap n : Nat) : (Base58.decodeLoopC cap (List.replicate n '1') []).steps = n := by
  induction n with
  | zero => rfl
  | succ n ih =>
    rw [List.replicate_succ, Base58.decodeLoopC]
    have h1 : Base58.charVal '1' = some 0 := by decide +kernel
    have h2 : (Base58.stepC 58 256 cap [] 0) = ⟨([], true), 0⟩ := by
      simp only [Base58.stepC, Base58.mulAddC]
      rfl
    rw [Counted.steps_bind, Counted.steps_ticks, if_neg (by decide), h1]
    simp only [Counted.steps_bind, h2]
    simp only [ih, if_true]
    omega

example (H : Hashes) (n : Nat) : n ≤ (ExtendedKey.fromStrC H (List.replicate n '1')).steps := by
  have h := ones_are_read (ExtendedKey.BYTE_SIZE + 4) n
  unfold ExtendedKey.fromStrC Base58.decodeCheckC Base58.decodeIntoC
  simp only [Counted.steps_bind, Counted.steps_ticks]
  omega

/-- `m/44'/0` takes 13 steps: five characters and three ends of components, two last characters, three digits. -/
example : (DerivationPath.fromStrC "m/44'/0".toList).steps = 13 := by decide +kernel

end Kms.Props
