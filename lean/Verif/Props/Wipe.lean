import Verif.Proofs.Wipe
import Verif.Model.Mnemonic
import Verif.Model.ErrorText
import Verif.Props.Seed
import Verif.Model.Ecdsa
import Verif.Props.Path
/-
C76 and C77.
-/
namespace Kms.Props
open Kms.Bip32 Kms.Bip39 Kms.Spec

/-- C76. Dropping a seed or a mnemonic leaves zeros in every cell of its buffers, spare capacity included, whatever
they held; `into_phrase` gives the phrase's own buffer away intact and leaves zeros in the buffer of the entropy. -/
theorem C76_secrets_wiped_on_drop :
    (∀ v : VecMem, (Seed.drop v).length = v.cells.length ∧ ∀ b ∈ Seed.drop v, b = 0) ∧
    (∀ m : Mnemonic.Mem,
      (Mnemonic.drop m).1.length = m.phrase.cells.length ∧ (∀ b ∈ (Mnemonic.drop m).1, b = 0) ∧
      (Mnemonic.drop m).2.length = m.entropy.cells.length ∧ (∀ b ∈ (Mnemonic.drop m).2, b = 0)) ∧
    (∀ m : Mnemonic.Mem, (Mnemonic.intoPhraseMem m).1.bytes = m.phrase.bytes ∧
      (Mnemonic.intoPhraseMem m).2.2.length = m.entropy.cells.length ∧ (∀ b ∈ (Mnemonic.intoPhraseMem m).2.2, b = 0) ∧
      ∀ b ∈ (Mnemonic.intoPhraseMem m).2.1, b = 0) := by
  have h : ∀ v : VecMem, v.zeroize.length = v.cells.length ∧ ∀ b ∈ v.zeroize, b = 0 := by
    intro v
    rw [VecMem.zeroize_eq]
    exact ⟨List.length_replicate, fun b hb => (List.mem_replicate.1 hb).2⟩
  exact ⟨h, fun m => ⟨(h _).1, (h _).2, (h _).1, (h _).2⟩, fun m => ⟨rfl, (h _).1, (h _).2, (h _).2⟩⟩

/-- A buffer with secrets in use and in its spare capacity. -/
example : Seed.drop ⟨[1, 2, 3, 4], 2, by decide⟩ = [0, 0, 0, 0] ∧ (VecMem.mk [1, 2, 3, 4] 2 (by decide)).bytes = [1, 2] := by
  decide

theorem decimal_inj {n m : Nat} (h : decimal n = decimal m) : n = m := by
  have h1 := ((decimal_iff _ _).1 (decimal_toDigits n)).2
  have h2 := ((decimal_iff _ _).1 (decimal_toDigits m)).2
  rw [h, h2] at h1
  simpa using h1.symm

theorem type_debug_inj {t t' : MnemonicType} (h : t.debug = t'.debug) : t = t' := by
  have h2 := congrArg (fun s : Str => s.drop 5) h
  cases t <;> cases t' <;> first | rfl | exact absurd h2 (by decide)

theorem entropy_message_inj (a b : Str) {n n' : Nat} {t t' : MnemonicType}
    (h : a ++ decimal n ++ b ++ t.debug = a ++ decimal n' ++ b ++ t'.debug) : n = n' ∧ t = t' := by
  have h7 : ∀ t : MnemonicType, t.debug.length = 7 := by intro t; cases t <;> decide +kernel
  have hl : t.debug.length = t'.debug.length := by rw [h7, h7]
  obtain ⟨h1, h2⟩ := List.append_inj' h hl
  exact ⟨decimal_inj (List.append_cancel_left (List.append_cancel_right h1)), type_debug_inj h2⟩

theorem bip32_display_inj : ∀ e e' : Bip32.Error, e.display = e'.display → e = e' := by
  intro e e'
  cases e <;> cases e' <;> first | exact fun _ => rfl | exact fun h => absurd h (by decide +kernel)

/-- C77. The message of an error determines the error, numbers included, in both modules, and no message of one is a message
of the other.  The signing error has one message for every cause, unlike all the others, and its source tells the cause. -/
theorem C77_error_messages :
    (∀ e e' : ErrorKind, e.display = e'.display → e = e') ∧
    (∀ e e' : Bip32.Error, e.display = e'.display → e = e') ∧
    (∀ (e : ErrorKind) (e' : Bip32.Error), e.display ≠ e'.display) ∧
    (∀ t : TopError, (∀ e : ErrorKind, t.display ≠ e.display) ∧ (∀ e : Bip32.Error, t.display ≠ e.display) ∧
      (∀ t' : TopError, t.display = t'.display) ∧ (∀ t' : TopError, t.source = t'.source → t = t') ∧ t.source ≠ none) := by
  have h11 : ∀ e : ErrorKind, e.display.take 11 ∈ ["invalid che".toList, "invalid wor".toList, "invalid key".toList,
      "invalid num".toList, "invalid ent".toList] := by
    intro e
    cases e
    · exact List.mem_of_elem_eq_true (by decide)
    · exact List.mem_of_elem_eq_true (by decide)
    · exact .tail _ (.tail _ (.head _))
    · exact .tail _ (.tail _ (.tail _ (.head _)))
    · exact .tail _ (.tail _ (.tail _ (.tail _ (.head _))))
  have hsecp : "secp256k1 error".toList.take 11 ∉ ["invalid che".toList, "invalid wor".toList, "invalid key".toList,
      "invalid num".toList, "invalid ent".toList] := by decide +kernel
  have htop : ∀ e : Bip32.Error, "secp256k1 error".toList ≠ e.display := by
    intro e
    cases e <;> decide +kernel
  refine ⟨?_, ?_, ?_, ?_⟩
  · intro e e' h
    have hc : e.display[8]? = e'.display[8]? := by rw [h]
    cases e with
    | invalidChecksum => cases e' <;> first | rfl | exact absurd (Option.some.inj hc) (by decide)
    | invalidWord => cases e' <;> first | rfl | exact absurd (Option.some.inj hc) (by decide)
    | invalidKeysize n =>
      cases e' with
      | invalidKeysize m => rw [decimal_inj (List.append_cancel_left h)]
      | _ => exact absurd (Option.some.inj hc) (by decide)
    | invalidWordLength n =>
      cases e' with
      | invalidWordLength m => rw [decimal_inj (List.append_cancel_left h)]
      | _ => exact absurd (Option.some.inj hc) (by decide)
    | invalidEntropyLength n t =>
      cases e' with
      | invalidEntropyLength n' t' =>
        obtain ⟨rfl, rfl⟩ := entropy_message_inj "invalid entropy length ".toList "bits for mnemonic type ".toList h
        rfl
      | _ => exact absurd (Option.some.inj hc) (by decide)
  · exact bip32_display_inj
  · intro e e' h
    have h1 := h11 e
    rw [h] at h1
    revert h1
    cases e' <;> decide +kernel
  · rintro ⟨c⟩
    refine ⟨fun e h => ?_, fun e h => ?_, fun ⟨_⟩ => rfl, ?_, by simp [TopError.source]⟩
    · have h1 := h11 e
      rw [← h] at h1
      exact hsecp h1
    · exact htop e h
    · rintro ⟨c'⟩ h
      cases h
      rfl

/-- Messages with and without numbers. -/
example : (ErrorKind.invalidWordLength 13).display = "invalid number of words in phrase: 13".toList ∧
    (ErrorKind.invalidEntropyLength 8 .words12).display = "invalid entropy length 8bits for mnemonic type Words12".toList ∧
    Bip32.Error.display .crypto = "cryptographic error".toList ∧
    (TopError.secp256k1Error .invalidMessage).display = "secp256k1 error".toList := by
  decide +kernel

end Kms.Props
