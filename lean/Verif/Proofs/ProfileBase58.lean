import Verif.Model.ProfileBase58
import Verif.Proofs.Profile
import Verif.Proofs.Base58
/-
No integer of the Base58 loops overflows.
-/
namespace Kms.Base58
open Profile
variable {ε : Type} (P : Profile) (hP : 32 ≤ P.usizeBits)
include hP

theorem mulAddEncP_eq (ds : List Nat) (c : Nat) (hd : ∀ d ∈ ds, d < 58) (hc : c ≤ 256) :
    (mulAddEncP P ds c : Res ε _) = .ok (mulAdd 256 58 ds c) ∧ (mulAdd 256 58 ds c).2 ≤ 256 := by
  have hp := P.pow_ge hP
  induction ds generalizing c with
  | nil => exact ⟨rfl, hc⟩
  | cons d ds ih =>
    have hd0 := hd d (by simp)
    have hs : (BitVec.ofNat P.usizeBits d <<< 8).toNat = d * 256 := by
      have h1 : d % 2 ^ P.usizeBits = d := Nat.mod_eq_of_lt (by omega)
      rw [BitVec.toNat_shiftLeft, BitVec.toNat_ofNat, h1, Nat.shiftLeft_eq]
      exact Nat.mod_eq_of_lt (by omega)
    obtain ⟨h1, h2⟩ := ih ((c + d * 256) / 58) (fun x hx => hd x (by simp [hx])) (by omega)
    rw [mulAddEncP, shl_ok P (by omega), Res.ok_bind, hs, add_ok P (by omega), Res.ok_bind, h1, Res.ok_bind, mulAdd]
    refine ⟨?_, h2⟩
    have : (c + d * 256) % 58 % 256 = (c + d * 256) % 58 := by omega
    rw [this]

theorem shr8 {v : Nat} (h : v < 2 ^ 32) : (BitVec.ofNat P.usizeBits v >>> 8).toNat = v / 256 := by
  have hp := P.pow_ge hP
  rw [BitVec.toNat_ushiftRight, BitVec.toNat_ofNat, Nat.mod_eq_of_lt (by omega), Nat.shiftRight_eq_div_pow]

omit P hP in
theorem and255 (v : Nat) : v &&& 0xFF = v % 256 := Nat.and_two_pow_sub_one_eq_mod v 8

theorem mulAddDecP_eq (ds : List Nat) (c : Nat) (hd : ∀ d ∈ ds, d < 256) (hc : c ≤ 58) :
    (mulAddDecP P ds c : Res ε _) = .ok (mulAdd 58 256 ds c) ∧ (mulAdd 58 256 ds c).2 ≤ 58 := by
  have hp := P.pow_ge hP
  induction ds generalizing c with
  | nil => exact ⟨rfl, hc⟩
  | cons d ds ih =>
    have hd0 := hd d (by simp)
    obtain ⟨h1, h2⟩ := ih ((c + d * 58) / 256) (fun x hx => hd x (by simp [hx])) (by omega)
    rw [mulAddDecP, mul_ok P (by omega), Res.ok_bind, add_ok P (by omega), Res.ok_bind, shr_ok P (by omega), Res.ok_bind,
      shr8 P hP (by omega), h1, Res.ok_bind, mulAdd, and255]
    exact ⟨rfl, h2⟩

theorem pushCarryEncP_eq (cap fuel : Nat) (ds : List Nat) (c : Nat) (hcap : cap < 2 ^ 31) (hl : ds.length ≤ cap) :
    (pushCarryEncP P cap fuel ds c : Res ε _) = .ok (pushCarry 58 cap fuel ds c) := by
  have hp := P.pow_ge hP
  induction fuel generalizing ds c with
  | zero => rfl
  | succ fuel ih =>
    rw [pushCarryEncP, pushCarry]
    split
    · split
      · rfl
      · rw [add_ok P (by omega), Res.ok_bind]
        have : c % 58 % 256 = c % 58 := by omega
        rw [this]
        exact ih _ _ (by simp; omega)
    · rfl

theorem pushCarryDecP_eq (cap fuel : Nat) (ds : List Nat) (c : Nat) (hcap : cap < 2 ^ 31) (hl : ds.length ≤ cap)
    (hc : c < 2 ^ 32) :
    (pushCarryDecP P cap fuel ds c : Res ε _) = .ok (pushCarry 256 cap fuel ds c) := by
  have hp := P.pow_ge hP
  induction fuel generalizing ds c with
  | zero => rfl
  | succ fuel ih =>
    rw [pushCarryDecP, pushCarry]
    split
    · split
      · rfl
      · rw [add_ok P (by omega), Res.ok_bind, shr_ok P (by omega), Res.ok_bind, shr8 P hP hc, and255]
        exact ih _ _ (by simp; omega) (by omega)
    · rfl

omit P hP in
theorem pushCarry_inv {base : Nat} (hb : 0 < base) (cap fuel : Nat) (ds : List Nat) (c : Nat) (hl : ds.length ≤ cap)
    (hd : ∀ d ∈ ds, d < base) :
    (pushCarry base cap fuel ds c).1.length ≤ cap ∧ ∀ d ∈ (pushCarry base cap fuel ds c).1, d < base := by
  induction fuel generalizing ds c with
  | zero => exact ⟨hl, hd⟩
  | succ fuel ih =>
    rw [pushCarry]
    split
    · split
      · exact ⟨hl, hd⟩
      · refine ih _ _ (by simp; omega) ?_
        intro d h
        rw [List.mem_append] at h
        rcases h with h | h
        · exact hd d h
        · simp at h; rw [h]; exact Nat.mod_lt _ hb
    · exact ⟨hl, hd⟩

omit P hP in
theorem step_inv {mul base : Nat} (hb : 0 < base) (cap : Nat) (ds : List Nat) (v : Nat) (hl : ds.length ≤ cap) :
    (step mul base cap ds v).1.length ≤ cap ∧ ∀ d ∈ (step mul base cap ds v).1, d < base :=
  pushCarry_inv hb _ _ _ _ (by rw [mulAdd_length]; exact hl) (mulAdd_lt hb ds v)

theorem pushZerosP_eq (cap k : Nat) (ds : List Nat) (hcap : cap < 2 ^ 31) (hl : ds.length ≤ cap) :
    (pushZerosP P cap k ds : Res ε _) = .ok (pushZeros cap k ds) := by
  have hp := P.pow_ge hP
  induction k generalizing ds with
  | zero => rfl
  | succ k ih =>
    rw [pushZerosP, pushZeros]
    split
    · rfl
    · rw [add_ok P (by omega), Res.ok_bind]
      exact ih _ (by simp; omega)

theorem encodeLoopP_eq (cap : Nat) (b : Bytes) (ds : List Nat) (hcap : cap < 2 ^ 31) (hl : ds.length ≤ cap)
    (hd : ∀ d ∈ ds, d < 58) :
    (encodeLoopP P cap b ds : Res ε _) = .ok (encodeLoop cap b ds) ∧ (encodeLoop cap b ds).1.length ≤ cap := by
  induction b generalizing ds with
  | nil => exact ⟨rfl, hl⟩
  | cons v rest ih =>
    have hv : v.toNat < 256 := v.toNat_lt
    rw [encodeLoopP, (mulAddEncP_eq P hP ds v.toNat hd (by omega)).1, Res.ok_bind,
      pushCarryEncP_eq P hP cap _ _ _ hcap (by rw [mulAdd_length]; exact hl), Res.ok_bind, encodeLoop]
    have hi := step_inv (mul := 256) (base := 58) (by omega) cap ds v.toNat hl
    rw [step] at hi ⊢
    revert hi
    generalize pushCarry 58 cap (mulAdd 256 58 ds v.toNat).2 (mulAdd 256 58 ds v.toNat).1 (mulAdd 256 58 ds v.toNat).2 = r
    rcases r with ⟨ds', b | b⟩
    · intro hi; exact ⟨rfl, hi.1⟩
    · intro hi; exact ih ds' hi.1 hi.2

theorem encodeIntoP_eq (cap : Nat) (b : Bytes) (hcap : cap < 2 ^ 31) : encodeIntoP P cap b = encodeInto cap b := by
  obtain ⟨h1, h2⟩ := encodeLoopP_eq (ε := EncodeError) P hP cap b [] hcap (by simp) (by simp)
  rw [encodeIntoP, h1, Res.ok_bind, encodeInto]
  revert h2
  generalize encodeLoop cap b [] = r
  rcases r with ⟨ds, b | b⟩
  · intro _; rfl
  · intro h2
    simp only
    rw [pushZerosP_eq P hP cap _ _ hcap h2, Res.ok_bind]
    generalize pushZeros cap _ ds = r
    rcases r with ⟨ds, b | b⟩ <;> rfl

omit P hP in
theorem charVal_lt {c : Char} {v : Nat} (h : charVal c = some v) : v < 58 := by
  by_cases hc : c ∈ alphabet
  · rw [charVal_some hc] at h
    simp at h
    rw [← h]; exact idxOf_lt hc
  · rw [charVal_none hc] at h; simp at h

theorem decodeLoopP_eq (cap : Nat) (s : Str) (ds : List Nat) (hcap : cap < 2 ^ 31) (hl : ds.length ≤ cap)
    (hd : ∀ d ∈ ds, d < 256) :
    (decodeLoopP P cap s ds : Res ε _) = .ok (decodeLoop cap s ds) ∧ (decodeLoop cap s ds).1.length ≤ cap := by
  induction s generalizing ds with
  | nil => exact ⟨rfl, hl⟩
  | cons c rest ih =>
    rw [decodeLoopP, decodeLoop]
    split
    · exact ⟨rfl, hl⟩
    · cases hcv : charVal c with
      | none => exact ⟨rfl, hl⟩
      | some v =>
        have hv := charVal_lt hcv
        obtain ⟨m1, m2⟩ := mulAddDecP_eq (ε := ε) P hP ds v hd (by omega)
        simp only
        rw [m1, Res.ok_bind, pushCarryDecP_eq P hP cap _ _ _ hcap (by rw [mulAdd_length]; exact hl) (by omega), Res.ok_bind]
        have hi := step_inv (mul := 58) (base := 256) (by omega) cap ds v hl
        rw [step] at hi ⊢
        revert hi
        generalize pushCarry 256 cap (mulAdd 58 256 ds v).2 (mulAdd 58 256 ds v).1 (mulAdd 58 256 ds v).2 = r
        rcases r with ⟨ds', b | b⟩
        · intro hi; exact ⟨rfl, hi.1⟩
        · intro hi; exact ih ds' hi.1 hi.2

omit P hP in
theorem pushZeros_len (cap k : Nat) (ds : List Nat) (hl : ds.length ≤ cap) : (pushZeros cap k ds).1.length ≤ cap := by
  induction k generalizing ds with
  | zero => exact hl
  | succ k ih =>
    rw [pushZeros]
    split
    · exact hl
    · exact ih _ (by simp; omega)

theorem decodeIntoP_eq (cap : Nat) (s : Str) (hcap : cap < 2 ^ 31) :
    (decodeIntoP P cap s : Res ε _) = .ok (decodeInto cap s) ∧ ∀ n, (decodeInto cap s).2 = .ok n → n ≤ cap := by
  obtain ⟨h1, h2⟩ := decodeLoopP_eq (ε := ε) P hP cap s [] hcap (by simp) (by simp)
  rw [decodeIntoP, h1, Res.ok_bind, decodeInto]
  revert h2
  generalize decodeLoop cap s [] = r
  rcases r with ⟨ds, _ | e⟩
  · intro h2
    simp only at h2 ⊢
    rw [pushZerosP_eq P hP cap _ _ hcap h2, Res.ok_bind]
    have h3 := pushZeros_len cap (s.takeWhile (· = '1')).length ds h2
    revert h3
    generalize pushZeros cap _ ds = r
    rcases r with ⟨ds, b | b⟩
    · intro _; exact ⟨rfl, by simp⟩
    · intro h3; exact ⟨rfl, by simpa using h3⟩
  · intro _; exact ⟨rfl, by simp⟩

theorem decodeCheckP_eq (H : Hashes) (cap : Nat) (s : Str) (hcap : cap < 2 ^ 31) :
    (decodeCheckP P H cap s : Res ε _) = .ok (decodeCheck H cap s) := by
  have hp := P.pow_ge hP
  obtain ⟨h1, h2⟩ := decodeIntoP_eq (ε := ε) P hP cap s hcap
  rw [decodeCheckP, h1, Res.ok_bind, decodeCheck]
  revert h2
  generalize decodeInto cap s = r
  rcases r with ⟨buf, n | e | _⟩
  · intro h2
    have := h2 n rfl
    simp only
    split
    · rfl
    · rw [sub_ok P (by omega) (by omega), Res.ok_bind]
      split <;> rfl
  · intro _; rfl
  · intro _; rfl

end Kms.Base58
