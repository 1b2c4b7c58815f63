import Verif.Proofs.NfkdSpec
/-
Property C63: normalization is that of the Unicode Standard.
-/
namespace Kms.Props
open Kms.Spec Kms.Spec.Nfkd Relation

/-- C63. The normalization applied to phrases and passwords is form KD of the Unicode Standard: it gives the one text
reached from the decomposed characters by exchanging marks that are out of order until none are, with the standard's
tables and its arithmetic for Hangul.  Every text has exactly one such form; it is its own form; and normalizing
piecewise and then the whole is normalizing the whole. -/
theorem C63_nfkd_unicode :
    (∀ s t, IsNfkd s t ↔ nfkd s = t) ∧
    (∀ s, ∃! t, IsNfkd s t) ∧
    (∀ s t, IsNfkd s t → IsNfkd t t) ∧
    (∀ a a' b b' c, IsNfkd a a' → IsNfkd b b' → (IsNfkd (a' ++ b') c ↔ IsNfkd (a ++ b) c)) := by
  refine ⟨fun s t => isNfkd_iff, fun s => ⟨nfkd s, isNfkd_iff.2 rfl, fun t h => (isNfkd_iff.1 h).symm⟩, ?_, ?_⟩
  · intro s t h
    rw [isNfkd_iff] at h ⊢
    rw [← h, nfkd_idem]
  · intro a a' b b' c ha hb
    rw [isNfkd_iff] at ha hb ⊢
    rw [isNfkd_iff, ← ha, ← hb]
    have fix : ∀ s, (nfkd s).flatMap decomposeCompatible = nfkd s := by
      intro s
      apply flatMap_fixed
      intro d hd
      obtain ⟨c, _, hd⟩ := mem_nfkd.mp hd
      exact decompose_fixed hd
    have : nfkd (nfkd a ++ nfkd b) = nfkd (a ++ b) := by
      apply nfkd_of_ordered
      refine ⟨?_, (nfkd_ordered _).2⟩
      have h1 := exchanges_append [] (b.flatMap decomposeCompatible) (nfkd_ordered a).1
      have h2 := exchanges_append (nfkd a) [] (nfkd_ordered b).1
      have h3 := (nfkd_ordered (nfkd a ++ nfkd b)).1
      rw [List.flatMap_append, fix, fix] at h3
      simp only [List.append_nil, List.nil_append] at h1 h2
      rw [List.flatMap_append]
      exact (h1.trans h2).trans h3
    rw [this]

/-- A case where an exchange happens: a dot below (class 220) moves before an acute accent (class 230). -/
example : nfkd ['a', Char.ofNat 0x301, Char.ofNat 0x323] = ['a', Char.ofNat 0x323, Char.ofNat 0x301] := by decide +kernel

/-- And marks of the same class stay in the order given. -/
example : nfkd ['a', Char.ofNat 0x301, Char.ofNat 0x300] = ['a', Char.ofNat 0x301, Char.ofNat 0x300] := by decide +kernel

/-- A syllable with a trailing consonant: GAG. -/
example : nfkd [Char.ofNat 0xAC01] = [Char.ofNat 0x1100, Char.ofNat 0x1161, Char.ofNat 0x11A8] := by decide +kernel

end Kms.Props
