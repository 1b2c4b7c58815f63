import Verif.Model.CostNfkd
import Verif.Proofs.Cost
import Verif.Proofs.NfkdSpec
/-
How long text can become under NFKD, and how many steps `from_phrase` and `Seed::new` take.
-/
namespace Kms
open Counted

/-! ### how long text becomes -/

/-- The bytes of a code point in UTF-8. -/
def sizeOf8 (k : Nat) : Nat := if k ≤ 127 then 1 else if k ≤ 2047 then 2 else if k ≤ 65535 then 3 else 4

theorem utf8Size_eq (c : Char) : c.utf8Size = sizeOf8 c.toNat := by
  unfold Char.utf8Size sizeOf8
  simp only [UInt32.le_iff_toNat_le]
  rfl

theorem sizeOf8_bounds (k : Nat) : 1 ≤ sizeOf8 k ∧ sizeOf8 k ≤ 4 := by
  unfold sizeOf8
  split_ifs <;> omega

theorem utf8_length (s : Str) : (utf8 s).length = (s.map fun c => sizeOf8 c.toNat).sum := by
  induction s with
  | nil => rfl
  | cons c s ih => rw [Bip39.utf8_cons, List.length_append, String.length_utf8EncodeChar, utf8Size_eq, ih]; rfl

theorem length_le_utf8 (s : Str) : s.length ≤ (utf8 s).length := by
  rw [utf8_length]
  induction s with
  | nil => simp
  | cons c s ih =>
    have := (sizeOf8_bounds c.toNat).1
    simp only [List.map_cons, List.sum_cons, List.length_cons]
    omega

theorem growth_table : Data.decompositions.all (fun p =>
    decide (1 ≤ p.2.length) && decide (p.2.length ≤ 18) && decide (p.2.length ≤ 6 * sizeOf8 p.1) &&
      decide ((p.2.map sizeOf8).sum ≤ 11 * sizeOf8 p.1)) = true := by
  decide +kernel

theorem decompose_growth (c : Char) :
    1 ≤ (decomposeCompatible c).length ∧ (decomposeCompatible c).length ≤ 18 ∧
    (decomposeCompatible c).length ≤ 6 * sizeOf8 c.toNat ∧ (utf8 (decomposeCompatible c)).length ≤ 11 * sizeOf8 c.toNat := by
  have hb := sizeOf8_bounds c.toNat
  have one : 1 ≤ [c].length ∧ [c].length ≤ 18 ∧ [c].length ≤ 6 * sizeOf8 c.toNat ∧ (utf8 [c]).length ≤ 11 * sizeOf8 c.toNat := by
    rw [utf8_length]
    simp only [List.length_singleton, List.map_cons, List.map_nil, List.sum_cons, List.sum_nil]
    omega
  unfold decomposeCompatible
  split
  · exact one
  split
  · rename_i h
    simp only [isHangulSyllable, Bool.and_eq_true, decide_eq_true_eq] at h
    have h3 : sizeOf8 c.toNat = 3 := by
      unfold sizeOf8
      rw [if_neg (by omega), if_neg (by omega), if_pos (by omega)]
    have hl : (decomposeHangul c).length ≤ 3 ∧ 1 ≤ (decomposeHangul c).length := by
      unfold decomposeHangul
      simp only
      split <;> simp
    have hu : (utf8 (decomposeHangul c)).length ≤ 4 * (decomposeHangul c).length := by
      rw [utf8_length]
      generalize decomposeHangul c = l
      induction l with
      | nil => simp
      | cons d l ih =>
        have := (sizeOf8_bounds d.toNat).2
        simp only [List.map_cons, List.sum_cons, List.length_cons]
        omega
    rw [h3]
    omega
  · split
    · rename_i ds hds
      have h1 := List.all_eq_true.mp growth_table _ (mem_of_lookup hds)
      simp only [Bool.and_eq_true, decide_eq_true_eq] at h1
      have h2 := entry_ok (mem_of_lookup hds)
      simp only [entryOk, Bool.and_eq_true] at h2
      have hval := h2.1.2
      have hv : ∀ k ∈ ds, (Char.ofNat k).toNat = k := by
        intro k hk
        have := List.all_eq_true.mp hval k hk
        simp at this
        exact toNat_ofNat (by omega) (by omega)
      rw [utf8_length, List.map_map, List.length_map]
      have : List.map ((fun c : Char => sizeOf8 c.toNat) ∘ Char.ofNat) ds = ds.map sizeOf8 := by
        apply List.map_congr_left
        intro k hk
        simp [hv k hk]
      rw [this]
      exact ⟨h1.1.1.1, h1.1.1.2, h1.1.2, h1.2⟩
    · exact one

theorem flatMap_growth (s : Str) :
    s.length ≤ (s.flatMap decomposeCompatible).length ∧ (s.flatMap decomposeCompatible).length ≤ 18 * s.length ∧
    (s.flatMap decomposeCompatible).length ≤ 6 * (utf8 s).length ∧
    (utf8 (s.flatMap decomposeCompatible)).length ≤ 11 * (utf8 s).length := by
  induction s with
  | nil => simp [utf8]
  | cons c s ih =>
    obtain ⟨h1, h2, h3, h4⟩ := decompose_growth c
    have e : (utf8 (c :: s)).length = sizeOf8 c.toNat + (utf8 s).length := by
      rw [Bip39.utf8_cons, List.length_append, String.length_utf8EncodeChar, utf8Size_eq]
    have e2 : utf8 (decomposeCompatible c ++ s.flatMap decomposeCompatible) =
        utf8 (decomposeCompatible c) ++ utf8 (s.flatMap decomposeCompatible) := by
      unfold utf8
      rw [List.flatMap_append]
    rw [List.flatMap_cons, e2, List.length_append, List.length_append, e, List.length_cons]
    omega

theorem utf8_perm {a b : Str} (h : a.Perm b) : (utf8 a).length = (utf8 b).length := by
  rw [utf8_length, utf8_length]
  exact (h.map _).sum_eq

theorem nfkd_growth (s : Str) :
    s.length ≤ (nfkd s).length ∧ (nfkd s).length ≤ 18 * s.length ∧ (nfkd s).length ≤ 6 * (utf8 s).length ∧
    (utf8 (nfkd s)).length ≤ 11 * (utf8 s).length := by
  have h := reorder_perm [] (s.flatMap decomposeCompatible)
  rw [List.nil_append] at h
  unfold nfkd
  rw [h.length_eq, utf8_perm h]
  exact flatMap_growth s

/-! ### steps -/

theorem decomposeAllC_val (s : Str) : (decomposeAllC s).val = s.flatMap decomposeCompatible := by
  induction s with
  | nil => rfl
  | cons c s ih => rw [List.flatMap_cons, ← ih]; rfl

theorem decomposeAllC_steps (s : Str) : (decomposeAllC s).steps = s.length + (s.flatMap decomposeCompatible).length := by
  induction s with
  | nil => rfl
  | cons c s ih =>
    simp only [decomposeAllC, steps_bind, steps_ticks, steps_pure, ih, List.flatMap_cons, List.length_append, List.length_cons]
    omega

theorem reorderC_val (sort : Nat → Nat) (p s : Str) : (reorderC sort p s).val = reorder p s := by
  induction s generalizing p with
  | nil => rfl
  | cons c s ih =>
    rw [reorderC, reorder, val_bind]
    split
    · simp [ih]
    · exact ih _

theorem reorderC_steps {sort : Nat → Nat} {M B : Nat} (hs : ∀ k ≤ M, sort k ≤ B * k) (p s : Str) (hM : p.length + s.length ≤ M) :
    (reorderC sort p s).steps ≤ 3 * s.length + 2 * p.length + B * (p.length + s.length) := by
  induction s generalizing p with
  | nil =>
    have := hs p.length (by simpa using hM)
    simp only [reorderC, steps_bind, steps_ticks, steps_pure, List.length_nil, Nat.add_zero]
    omega
  | cons c s ih =>
    rw [List.length_cons] at hM ⊢
    rw [reorderC, steps_bind, steps_ticks]
    split
    · have h1 := hs p.length (by omega)
      have h2 := ih [c] (by simp; omega)
      simp only [steps_bind, steps_ticks, steps_pure, List.length_singleton] at h2 ⊢
      have e : B * (p.length + (s.length + 1)) = B * p.length + B * (1 + s.length) := by ring
      omega
    · have h2 := ih (p ++ [c]) (by simp; omega)
      simp only [List.length_append, List.length_singleton] at h2
      have e : p.length + 1 + s.length = p.length + (s.length + 1) := by omega
      rw [e] at h2
      omega

theorem nfkdC_val (sort : Nat → Nat) (s : Str) : (nfkdC sort s).val = nfkd s := by
  unfold nfkdC nfkd
  rw [val_bind, reorderC_val, decomposeAllC_val]

theorem nfkdC_steps {sort : Nat → Nat} {M B : Nat} (hs : ∀ k ≤ M, sort k ≤ B * k) (s : Str) (hM : 6 * (utf8 s).length ≤ M) :
    (nfkdC sort s).steps ≤ (25 + 6 * B) * (utf8 s).length := by
  obtain ⟨_, _, h3, _⟩ := flatMap_growth s
  have h1 := length_le_utf8 s
  unfold nfkdC
  rw [steps_bind, decomposeAllC_val, decomposeAllC_steps]
  have h2 := reorderC_steps hs [] (s.flatMap decomposeCompatible) (by simp only [List.length_nil]; omega)
  simp only [List.length_nil, Nat.zero_add, Nat.mul_zero, Nat.add_zero] at h2
  have h4 : B * (s.flatMap decomposeCompatible).length ≤ 6 * B * (utf8 s).length := by
    calc _ ≤ B * (6 * (utf8 s).length) := Nat.mul_le_mul_left _ h3
      _ = _ := by ring
  have e : (25 + 6 * B) * (utf8 s).length = 25 * (utf8 s).length + 6 * B * (utf8 s).length := by ring
  omega

namespace Bip39

theorem wordBytes_splitWs (s : Str) : wordBytes (splitWs s) ≤ (utf8 s).length + 1 := by
  induction s with
  | nil => exact le_of_eq rfl
  | cons c cs ih =>
    have hc := (sizeOf8_bounds c.toNat).1
    have e : (utf8 (c :: cs)).length = sizeOf8 c.toNat + (utf8 cs).length := by
      rw [Bip39.utf8_cons, List.length_append, String.length_utf8EncodeChar, utf8Size_eq]
    rw [splitWs, e]
    split
    · simp [wordBytes, utf8] at ih ⊢
      omega
    · split
      · rename_i h
        rw [h] at ih
        simp only [wordBytes, List.map_cons, List.map_nil, List.sum_cons, List.sum_nil, utf8_length]
        simp
      · rename_i w ws h
        rw [h] at ih
        have e2 : (utf8 (c :: w)).length = sizeOf8 c.toNat + (utf8 w).length := by
          rw [Bip39.utf8_cons, List.length_append, String.length_utf8EncodeChar, utf8Size_eq]
        simp only [wordBytes, List.map_cons, List.sum_cons, e2] at ih ⊢
        omega

theorem wordBytes_splitWhitespace (s : Str) : wordBytes (splitWhitespace s) ≤ (utf8 s).length + 1 := by
  refine le_trans ?_ (wordBytes_splitWs s)
  unfold splitWhitespace
  generalize splitWs s = l
  induction l with
  | nil => simp
  | cons w l ih =>
    rw [List.filter_cons]
    split <;> simp only [wordBytes, List.map_cons, List.sum_cons] at ih ⊢ <;> omega

theorem normaliseWordsC_val (sort : Nat → Nat) (ws : List Str) : (normaliseWordsC sort ws).val = ws.map nfkd := by
  induction ws with
  | nil => rfl
  | cons w ws ih => simp [normaliseWordsC, nfkdC_val, ih]

theorem mem_wordBytes {ws : List Str} {w : Str} (h : w ∈ ws) : (utf8 w).length + 1 ≤ wordBytes ws := by
  induction ws with
  | nil => simp at h
  | cons v ws ih =>
    simp only [wordBytes, List.map_cons, List.sum_cons] at ih ⊢
    rcases List.mem_cons.1 h with rfl | h
    · omega
    · have := ih h
      omega

theorem wordBytes_ge (ws : List Str) : ws.length ≤ wordBytes ws := by
  induction ws with
  | nil => simp
  | cons v ws ih =>
    simp only [wordBytes, List.map_cons, List.sum_cons, List.length_cons] at ih ⊢
    omega

theorem normaliseWordsC_steps {sort : Nat → Nat} {M B : Nat} (hs : ∀ k ≤ M, sort k ≤ B * k) (ws : List Str)
    (hM : ∀ w ∈ ws, 6 * (utf8 w).length ≤ M) :
    (normaliseWordsC sort ws).steps ≤ (36 + 6 * B) * (wordBytes ws - ws.length) := by
  induction ws with
  | nil => simp [normaliseWordsC]
  | cons w ws ih =>
    have h1 := ih fun v hv => hM v (by simp [hv])
    have h2 := nfkdC_steps hs w (hM w (by simp))
    have h3 := (nfkd_growth w).2.2.2
    have h4 := wordBytes_ge ws
    simp only [normaliseWordsC, steps_bind, steps_ticks, steps_pure, nfkdC_val]
    have e : wordBytes (w :: ws) - (w :: ws).length = (utf8 w).length + (wordBytes ws - ws.length) := by
      simp only [wordBytes, List.map_cons, List.sum_cons, List.length_cons] at h4 ⊢
      omega
    rw [e, Nat.mul_add]
    have e2 : (36 + 6 * B) * (utf8 w).length = (25 + 6 * B) * (utf8 w).length + 11 * (utf8 w).length := by ring
    omega

theorem join_bytes (ws : List Str) : (utf8 (join [' '] ws)).length + 1 ≤ wordBytes ws + 1 ∧
    (ws ≠ [] → (utf8 (join [' '] ws)).length + 1 = wordBytes ws) := by
  have key : ∀ (ws : List Str) (b : Str), (utf8 (ws.foldl (fun buffer item => (buffer ++ [' ']) ++ item) b)).length =
      (utf8 b).length + wordBytes ws := by
    intro ws
    induction ws with
    | nil => intro b; simp [wordBytes]
    | cons w ws ih =>
      intro b
      rw [List.foldl_cons, ih]
      have h3 : (String.utf8EncodeChar ' ').length = 1 := by decide
      simp only [utf8, List.flatMap_append, List.length_append, wordBytes, List.map_cons, List.sum_cons, List.flatMap_cons,
        List.flatMap_nil, h3]
      simp
      omega
  cases ws with
  | nil => simp [join, utf8, wordBytes]
  | cons w ws =>
    have : (utf8 (join [' '] (w :: ws))).length + 1 = wordBytes (w :: ws) := by
      unfold join
      rw [key]
      simp only [wordBytes, List.map_cons, List.sum_cons]
      omega
    exact ⟨by omega, fun _ => this⟩

theorem wordBytes_nfkd (ws : List Str) :
    wordBytes (ws.map nfkd) ≤ 11 * (wordBytes ws - ws.length) + ws.length := by
  induction ws with
  | nil => simp [wordBytes]
  | cons w ws ih =>
    have h3 := (nfkd_growth w).2.2.2
    have h4 := wordBytes_ge ws
    simp only [wordBytes, List.map_cons, List.sum_cons, List.length_cons] at ih h4 ⊢
    omega

theorem normalise_bytes (s : Str) : (utf8 (Mnemonic.normalisePhrase s)).length ≤ 11 * (utf8 s).length := by
  have h1 := wordBytes_splitWhitespace s
  have h2 := wordBytes_nfkd (splitWhitespace s)
  have h3 := wordBytes_ge (splitWhitespace s)
  unfold Mnemonic.normalisePhrase
  have h4 := join_bytes ((splitWhitespace s).map nfkd)
  cases h : splitWhitespace s with
  | nil => simp [join, utf8]
  | cons w ws =>
    rw [h] at h1 h2 h3 h4
    have h5 := h4.2 (by simp)
    rw [List.length_cons] at h2 h3
    omega

theorem Mnemonic.normalisePhraseC_val (sort : Nat → Nat) (s : Str) :
    (normalisePhraseC sort s).val = normalisePhrase s := by
  simp [normalisePhraseC, normalisePhrase, normaliseWordsC_val]

theorem Mnemonic.fromPhraseC_val (sort : Nat → Nat) (H : Hashes) (s : Str) (l : Language) :
    (fromPhraseC sort H s l).val = fromPhrase H s l := by
  unfold fromPhraseC fromPhrase
  simp only [val_bind, normalisePhraseC_val, val_andThen, phraseToEntropyC_val]
  cases phraseToEntropy H (normalisePhrase s) l <;> rfl

theorem Mnemonic.fromPhraseC_steps {sort : Nat → Nat} {B : Nat} (H : Hashes) (s : Str) (l : Language)
    (hs : ∀ k ≤ 6 * (utf8 s).length, sort k ≤ B * k) :
    (fromPhraseC sort H s l).steps ≤ (70 + 6 * B) * (utf8 s).length + 37 := by
  have h1 := wordBytes_splitWhitespace s
  have h3 := wordBytes_ge (splitWhitespace s)
  have h4 := length_le_utf8 s
  have h5 := normalise_bytes s
  have h6 := Mnemonic.phraseToEntropyC_steps H (normalisePhrase s) l
  have h7 := normaliseWordsC_steps hs (splitWhitespace s) fun w hw => by
    have := mem_wordBytes hw
    omega
  unfold fromPhraseC
  simp only [steps_bind, normalisePhraseC_val]
  have h8 : (andThen (phraseToEntropyC H (normalisePhrase s) l) fun entropy =>
      (pure (.ok { phrase := normalisePhrase s, lang := l, entropy }) : Counted (Res ErrorKind Mnemonic))).steps ≤
      (phraseToEntropyC H (normalisePhrase s) l).steps + 0 := steps_andThen_le _ _ 0 fun _ _ => by simp
  have h9 : (normalisePhraseC sort s).steps = s.length + ((normaliseWordsC sort (splitWhitespace s)).steps +
      (splitWhitespace s).length) := by
    simp [normalisePhraseC, normaliseWordsC_val]
  rw [h9]
  have h10 : (36 + 6 * B) * (wordBytes (splitWhitespace s) - (splitWhitespace s).length) + (splitWhitespace s).length ≤
      (36 + 6 * B) * (utf8 s).length + 1 := by
    cases h : splitWhitespace s with
    | nil => simp [wordBytes]
    | cons w ws =>
      rw [h] at h1 h3
      rw [List.length_cons] at h3
      obtain ⟨d, hd⟩ : ∃ d, (utf8 s).length = wordBytes (w :: ws) - (ws.length + 1) + ws.length + d := ⟨_, (Nat.add_sub_of_le (by omega)).symm⟩
      rw [List.length_cons, hd, Nat.mul_add, Nat.mul_add]
      have : ws.length ≤ (36 + 6 * B) * ws.length := Nat.le_mul_of_pos_left _ (by omega)
      omega
  have e : (70 + 6 * B) * (utf8 s).length = (36 + 6 * B) * (utf8 s).length + 34 * (utf8 s).length := by ring
  omega

theorem pbkdf2LoopC_val (H : Hashes) (p : Bytes) (k : Nat) (s c : Bytes) :
    (pbkdf2LoopC H p k s c).val = H.pbkdf2Loop p k s c := by
  induction k generalizing s c with
  | zero => rfl
  | succ k ih => simp only [pbkdf2LoopC, Hashes.pbkdf2Loop, val_bind, ih]

theorem pbkdf2LoopC_steps (H : Hashes) (p : Bytes) (k : Nat) (s c : Bytes) (hs : s.length = 64) :
    (pbkdf2LoopC H p k s c).steps = 192 * k := by
  induction k generalizing s c with
  | zero => rfl
  | succ k ih =>
    simp only [pbkdf2LoopC, steps_bind, steps_ticks, hs, ih _ _ (H.hmacSha512 p s).2]
    omega

theorem pbkdf2C_val (H : Hashes) (p s : Bytes) (k : Nat) : (pbkdf2C H p s k).val = H.pbkdf2Body 0 p s k := by
  unfold pbkdf2C Hashes.pbkdf2Body
  simp only [val_bind, pbkdf2LoopC_val, Nat.zero_add]

theorem pbkdf2C_steps (H : Hashes) (p s : Bytes) (k : Nat) :
    (pbkdf2C H p s k).steps = p.length + s.length + 388 + 192 * (k - 1) := by
  unfold pbkdf2C
  simp only [steps_bind, steps_ticks]
  rw [pbkdf2LoopC_steps _ _ _ _ _ (H.hmacSha512 _ _).2]
  omega

theorem Seed.newC_val (sort : Nat → Nat) (H : Hashes) (m : Mnemonic) (pw : Str) : (Seed.newC sort H m pw).val = Seed.new H m pw := by
  have key : ∀ k, (do
      ticks (utf8 (salt pw)).length
      let normalizedSalt ← nfkdC sort (salt pw)
      ticks (utf8 normalizedSalt).length
      ticks m.asBytes.length
      let bytes ← pbkdf2C H m.asBytes (utf8 normalizedSalt) k
      pure ({ bytes } : Seed)).val = ⟨H.pbkdf2Body 0 m.asBytes (utf8 (nfkd (salt pw))) k⟩ := fun k => by
    simp only [val_bind, nfkdC_val, pbkdf2C_val, val_pure]
  exact key 2048

theorem Seed.newC_steps {sort : Nat → Nat} {B : Nat} (H : Hashes) (m : Mnemonic) (pw : Str)
    (hs : ∀ k ≤ 6 * ((utf8 pw).length + 8), sort k ≤ B * k) :
    (Seed.newC sort H m pw).steps ≤ (48 + 6 * B) * ((utf8 pw).length + 8) + 2 * m.asBytes.length + 393412 := by
  have e0 : (utf8 (Seed.salt pw)).length = (utf8 pw).length + 8 := by
    simp only [Seed.salt, utf8, List.flatMap_append, List.length_append]
    rw [Nat.add_comm]
    rfl
  have h1 := nfkdC_steps hs (Seed.salt pw) (by rw [e0])
  have h2 := (nfkd_growth (Seed.salt pw)).2.2.2
  rw [e0] at h1 h2
  have h3 := pbkdf2C_steps H m.asBytes (utf8 (nfkd (Seed.salt pw))) 2048
  norm_num at h3
  unfold Seed.newC
  generalize 2048 = k at h3 ⊢
  simp only [steps_bind, steps_ticks, steps_pure, nfkdC_val, e0, h3]
  have e : (48 + 6 * B) * ((utf8 pw).length + 8) = (25 + 6 * B) * ((utf8 pw).length + 8) + 23 * ((utf8 pw).length + 8) := by ring
  omega

end Bip39
end Kms
