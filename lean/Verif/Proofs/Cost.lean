import Verif.Model.Cost
import Verif.Proofs.Base58
/-
The counted functions return what the uncounted ones return, and how many steps they take.
-/
namespace Kms

namespace Counted

@[simp] theorem val_pure {α : Type} (a : α) : (pure a : Counted α).val = a := rfl
@[simp] theorem steps_pure {α : Type} (a : α) : (pure a : Counted α).steps = 0 := rfl
@[simp] theorem val_bind {α β : Type} (x : Counted α) (f : α → Counted β) : (x >>= f).val = (f x.val).val := rfl
@[simp] theorem steps_bind {α β : Type} (x : Counted α) (f : α → Counted β) :
    (x >>= f).steps = x.steps + (f x.val).steps := rfl
@[simp] theorem steps_ticks (n : Nat) : (ticks n).steps = n := rfl

theorem val_andThen {ε α β : Type} (x : Counted (Res ε α)) (f : α → Counted (Res ε β)) :
    (andThen x f).val = x.val.bind fun a => (f a).val := by
  unfold andThen
  cases x.val <;> rfl

theorem steps_andThen_le {ε α β : Type} (x : Counted (Res ε α)) (f : α → Counted (Res ε β)) (n : Nat)
    (h : ∀ a, x.val = .ok a → (f a).steps ≤ n) : (andThen x f).steps ≤ x.steps + n := by
  unfold andThen
  split
  · rename_i a ha
    simpa using h a ha
  · exact Nat.le_add_right _ _
  · exact Nat.le_add_right _ _

end Counted

namespace Base58
open Counted Nat

theorem mulAddC_val (mul base : Nat) (ds : List Nat) (c : Nat) : (mulAddC mul base ds c).val = mulAdd mul base ds c := by
  induction ds generalizing c with
  | nil => rfl
  | cons d ds ih => simp [mulAddC, mulAdd, ih]

theorem mulAddC_steps (mul base : Nat) (ds : List Nat) (c : Nat) : (mulAddC mul base ds c).steps = ds.length := by
  induction ds generalizing c with
  | nil => rfl
  | cons d ds ih => simp [mulAddC, ih, Nat.add_comm]

theorem pushCarryC_val (base cap fuel : Nat) (ds : List Nat) (c : Nat) :
    (pushCarryC base cap fuel ds c).val = pushCarry base cap fuel ds c := by
  induction fuel generalizing ds c with
  | zero => rfl
  | succ n ih =>
    rw [pushCarryC, pushCarry]
    split
    · simp only [val_bind]
      split
      · rfl
      · exact ih _ _
    · rfl

theorem pushCarryC_steps {base : Nat} (cap fuel : Nat) (ds : List Nat) (c : Nat) (hc : c < base) :
    (pushCarryC base cap fuel ds c).steps ≤ 1 := by
  cases fuel with
  | zero => simp [pushCarryC]
  | succ n =>
    rw [pushCarryC]
    split
    · simp only [steps_bind, steps_ticks]
      split
      · simp
      · rw [Nat.div_eq_of_lt hc]
        cases n <;> simp [pushCarryC]
    · simp

theorem mulAdd_carry {mul base : Nat} (hb : 0 < base) (ds : List Nat) (c : Nat) (hd : ∀ x ∈ ds, x < base)
    (hc : c < mul) : (mulAdd mul base ds c).2 < mul := by
  induction ds generalizing c with
  | nil => exact hc
  | cons d ds ih =>
    simp only [mulAdd]
    apply ih _ (fun x hx => hd x (List.mem_cons_of_mem _ hx))
    rw [Nat.div_lt_iff_lt_mul hb]
    have h := hd d List.mem_cons_self
    have h2 : d * mul ≤ (base - 1) * mul := Nat.mul_le_mul_right _ (by omega)
    have h3 : (base - 1) * mul + mul = mul * base := by
      rw [← Nat.succ_mul, Nat.mul_comm, Nat.succ_eq_add_one, Nat.sub_add_cancel hb]
    omega

theorem stepC_val (mul base cap : Nat) (ds : List Nat) (v : Nat) : (stepC mul base cap ds v).val = step mul base cap ds v := by
  simp [stepC, step, mulAddC_val, pushCarryC_val]

theorem stepC_steps (cap : Nat) (ds : List Nat) (v : Nat) (hd : ∀ x ∈ ds, x < 256) (hv : v < 58) :
    (stepC 58 256 cap ds v).steps ≤ ds.length + 1 := by
  simp only [stepC, steps_bind, mulAddC_steps, mulAddC_val]
  have := pushCarryC_steps cap (mulAdd 58 256 ds v).2 (mulAdd 58 256 ds v).1 (mulAdd 58 256 ds v).2
    (lt_trans (mulAdd_carry (by decide) ds v hd hv) (by decide : (58 : Nat) < 256))
  omega

theorem decodeLoopC_val (cap : Nat) (s : Str) (ds : List Nat) : (decodeLoopC cap s ds).val = decodeLoop cap s ds := by
  induction s generalizing ds with
  | nil => rfl
  | cons c rest ih =>
    rw [decodeLoopC, decodeLoop]
    simp only [val_bind]
    split
    · rfl
    · cases charVal c with
      | none => rfl
      | some v =>
        simp only [val_bind, stepC_val]
        rcases h : step 58 256 cap ds v with ⟨ds', b⟩
        cases b
        · simp
        · simpa using ih ds'

theorem charVal_lt {c : Char} {v : Nat} (h : charVal c = some v) : v < 58 := by
  unfold charVal at h
  have := List.findIdx?_eq_some_iff_findIdx_eq.mp h
  exact this.1

/-- One step: the number in the buffer after it, if it succeeds. -/
theorem step_ok {cap v c : Nat} {ds' : List Nat} (hl : (digits 256 v).length ≤ cap)
    (h : step 58 256 cap (digits 256 v) c = (ds', true)) :
    ds' = digits 256 (58 * v + c) ∧ (digits 256 (58 * v + c)).length ≤ cap := by
  have hs := step_spec (mul := 58) (base := 256) (by decide) (by decide) cap v c hl
  by_cases hc : (digits 256 (58 * v + c)).length ≤ cap
  · have := hs.1 hc
    rw [h] at this
    exact ⟨(Prod.mk.inj this).1, hc⟩
  · have := hs.2 (by omega)
    rw [h] at this
    simp at this

theorem decodeLoopC_steps_pos (cap : Nat) (s : Str) (v k : Nat) (hl : (digits 256 v).length ≤ cap)
    (hk : 256 ^ cap ≤ 58 ^ k * v) : (decodeLoopC cap s (digits 256 v)).steps ≤ s.length + k * (cap + 1) := by
  induction s generalizing v k with
  | nil => simp [decodeLoopC]
  | cons c rest ih =>
    have hlt : v < 256 ^ cap :=
      lt_of_lt_of_le (Nat.lt_base_pow_length_digits (b := 256) (by decide)) (Nat.pow_le_pow_right (by decide) hl)
    cases k with
    | zero => simp at hk; omega
    | succ k =>
      rw [decodeLoopC]
      have e : (k + 1) * (cap + 1) = k * (cap + 1) + (cap + 1) := by ring
      simp only [steps_bind, steps_ticks, List.length_cons]
      rw [e]
      split
      · simp only [steps_pure]; omega
      · cases hcv : charVal c with
        | none => simp only [steps_pure]; omega
        | some d =>
          have hd := charVal_lt hcv
          have h1 := stepC_steps cap (digits 256 v) d (fun x hx => Nat.digits_lt_base (by decide) hx) hd
          simp only [steps_bind, stepC_val]
          rcases hst : step 58 256 cap (digits 256 v) d with ⟨ds', b⟩
          cases b
          · rw [if_neg (by simp), steps_pure]; omega
          · obtain ⟨rfl, hl'⟩ := step_ok hl hst
            have hk' : 256 ^ cap ≤ 58 ^ k * (58 * v + d) := by
              calc 256 ^ cap ≤ 58 ^ (k + 1) * v := hk
                _ = 58 ^ k * (58 * v) := by ring
                _ ≤ 58 ^ k * (58 * v + d) := Nat.mul_le_mul_left _ (by omega)
            have h2 := ih _ k hl' hk'
            rw [if_pos rfl]
            simp only
            omega

theorem decodeLoopC_steps (cap : Nat) (s : Str) (k : Nat) (hk : 256 ^ cap ≤ 58 ^ k) :
    (decodeLoopC cap s []).steps ≤ s.length + k * (cap + 1) + 1 := by
  induction s with
  | nil => simp [decodeLoopC]
  | cons c rest ih =>
    rw [decodeLoopC]
    simp only [steps_bind, steps_ticks, List.length_cons]
    split
    · simp only [steps_pure]; omega
    · cases hcv : charVal c with
      | none => simp only [steps_pure]; omega
      | some d =>
        have hd := charVal_lt hcv
        have h1 := stepC_steps cap [] d (by simp) hd
        simp only [steps_bind, stepC_val]
        rcases hst : step 58 256 cap [] d with ⟨ds', b⟩
        cases b
        · simp at h1 ⊢; omega
        · have hst' : step 58 256 cap (digits 256 0) d = (ds', true) := by simpa using hst
          obtain ⟨rfl, hl'⟩ := step_ok (by simp) hst'
          simp only [Nat.mul_zero, Nat.zero_add] at hl' ⊢
          by_cases h0 : d = 0
          · subst h0
            have h2 : (stepC 58 256 cap [] 0).steps = 0 := by simp [stepC, mulAddC, pushCarryC]
            simp [h2]
            omega
          · have h2 := decodeLoopC_steps_pos cap rest d k hl'
              (le_trans hk (Nat.le_mul_of_pos_right _ (by omega)))
            simp at h1 ⊢
            omega

theorem pushOnesC_val (cap : Nat) (s : Str) (ds : List Nat) :
    (pushOnesC cap s ds).val = pushZeros cap (s.takeWhile (· = '1')).length ds := by
  induction s generalizing ds with
  | nil => rfl
  | cons c rest ih =>
    rw [pushOnesC]
    by_cases hc : c = '1'
    · rw [if_pos hc, List.takeWhile_cons_of_pos (by simpa using hc), List.length_cons, pushZeros]
      simp only [val_bind]
      split
      · rfl
      · exact ih _
    · rw [if_neg hc, List.takeWhile_cons_of_neg (by simpa using hc)]
      rfl

theorem pushOnesC_steps (cap : Nat) (s : Str) (ds : List Nat) (hl : ds.length ≤ cap) :
    (pushOnesC cap s ds).steps ≤ cap + 1 - ds.length ∧ (pushOnesC cap s ds).val.1.length ≤ cap := by
  induction s generalizing ds with
  | nil => simp [pushOnesC, hl]
  | cons c rest ih =>
    rw [pushOnesC]
    split
    · simp only [steps_bind, steps_ticks, val_bind]
      split
      · simp; omega
      · have := ih (ds ++ [0]) (by simp; omega)
        simp only [List.length_append, List.length_cons, List.length_nil] at this
        omega
    · simp [hl]

theorem pushCarry_length (base cap fuel : Nat) (ds : List Nat) (c : Nat) (hl : ds.length ≤ cap) :
    (pushCarry base cap fuel ds c).1.length ≤ cap := by
  induction fuel generalizing ds c with
  | zero => simpa [pushCarry] using hl
  | succ n ih =>
    rw [pushCarry]
    split
    · split
      · exact hl
      · exact ih _ _ (by simp; omega)
    · exact hl

theorem decodeLoop_length (cap : Nat) (s : Str) (ds : List Nat) (hl : ds.length ≤ cap) :
    (decodeLoop cap s ds).1.length ≤ cap := by
  induction s generalizing ds with
  | nil => exact hl
  | cons c rest ih =>
    rw [decodeLoop]
    split
    · exact hl
    · split
      · exact hl
      · rename_i v _
        have h1 : (step 58 256 cap ds v).1.length ≤ cap := by
          unfold step
          exact pushCarry_length _ _ _ _ _ (by rw [mulAdd_length]; exact hl)
        split
        · rename_i ds' hst
          rw [hst] at h1
          exact ih _ h1
        · rename_i ds' hst
          rw [hst] at h1
          exact h1

theorem decodeIntoC_val (cap : Nat) (s : Str) : (decodeIntoC cap s).val = decodeInto cap s := by
  unfold decodeIntoC decodeInto
  simp only [val_bind, decodeLoopC_val]
  rcases decodeLoop cap s [] with ⟨ds, e⟩
  cases e with
  | some e => rfl
  | none =>
    simp only [val_bind, pushOnesC_val]
    rcases pushZeros cap (s.takeWhile (· = '1')).length ds with ⟨ds', b⟩
    cases b <;> simp

theorem decodeIntoC_steps (cap : Nat) (s : Str) (k : Nat) (hk : 256 ^ cap ≤ 58 ^ k) :
    (decodeIntoC cap s).steps ≤ s.length + k * (cap + 1) + 2 * cap + 2 := by
  unfold decodeIntoC
  have h1 := decodeLoopC_steps cap s k hk
  have hlen := decodeLoop_length cap s [] (by simp)
  simp only [steps_bind, decodeLoopC_val]
  generalize decodeLoop cap s [] = dl at hlen ⊢
  rcases dl with ⟨ds, e⟩
  cases e with
  | some e => simp; omega
  | none =>
    have h2 := pushOnesC_steps cap s ds hlen
    simp only [steps_bind]
    split
    · simp only [steps_bind, steps_ticks, steps_pure]
      omega
    · simp only [steps_pure]
      omega

theorem decodeCheckC_val (H : Hashes) (cap : Nat) (s : Str) : (decodeCheckC H cap s).val = decodeCheck H cap s := by
  unfold decodeCheckC decodeCheck
  simp only [val_bind, decodeIntoC_val]
  rcases decodeInto cap s with ⟨buf, r⟩
  cases r with
  | ok len =>
    simp only
    split
    · rfl
    · simp only [val_bind]
      split <;> rfl
  | err e => rfl
  | panic => rfl

theorem decodeInto_ok_le {cap : Nat} {s : Str} {buf : Bytes} {len : Nat} (h : decodeInto cap s = (buf, .ok len)) :
    len ≤ cap := by
  have hlen := decodeLoop_length cap s [] (by simp)
  unfold decodeInto at h
  rcases hl : decodeLoop cap s [] with ⟨ds, e⟩
  rw [hl] at h hlen
  cases e with
  | some e => simp at h
  | none =>
    simp only at h hlen
    have h2 := (pushOnesC_steps cap s ds hlen).2
    rw [pushOnesC_val] at h2
    rcases hz : pushZeros cap (s.takeWhile (· = '1')).length ds with ⟨ds', b⟩
    rw [hz] at h h2
    cases b
    · simp at h
    · simp at h h2
      omega

theorem decodeCheckC_steps (H : Hashes) (cap : Nat) (s : Str) (k : Nat) (hk : 256 ^ cap ≤ 58 ^ k) :
    (decodeCheckC H cap s).steps ≤ s.length + k * (cap + 1) + 3 * cap + 38 := by
  unfold decodeCheckC
  have h1 := decodeIntoC_steps cap s k hk
  simp only [steps_bind, decodeIntoC_val]
  rcases hd : decodeInto cap s with ⟨buf, r⟩
  cases r with
  | ok len =>
    have hle := decodeInto_ok_le hd
    simp only
    split
    · simp; omega
    · simp only [steps_bind, steps_ticks, (H.sha256 _).2]
      have : (buf.take (len - 4)).length ≤ cap := by
        rw [List.length_take]; omega
      split <;> simp only [steps_pure] <;> omega
  | err e => simp; omega
  | panic => simp; omega

end Base58

namespace Bip32
open Counted Base58

theorem buffer_length {cap : Nat} {ds : List Nat} (h : ds.length ≤ cap) : (buffer cap ds).length = cap := by
  simp [buffer]; omega

theorem decodeCheck_buf_length (H : Hashes) (cap : Nat) (s : Str) : (decodeCheck H cap s).1.length = cap := by
  have hlen := decodeLoop_length cap s [] (by simp)
  have key : (decodeInto cap s).1.length = cap := by
    unfold decodeInto
    rcases hl : decodeLoop cap s [] with ⟨ds, e⟩
    rw [hl] at hlen
    cases e with
    | some e => exact buffer_length hlen
    | none =>
      simp only at hlen ⊢
      have h2 := (pushOnesC_steps cap s ds hlen).2
      rw [pushOnesC_val] at h2
      rcases hz : pushZeros cap (s.takeWhile (· = '1')).length ds with ⟨ds', b⟩
      rw [hz] at h2
      cases b
      · exact buffer_length h2
      · exact buffer_length (by simpa using h2)
  unfold decodeCheck
  rcases hd : decodeInto cap s with ⟨buf, r⟩
  rw [hd] at key
  cases r with
  | ok len =>
    simp only
    split
    · exact key
    · split <;> exact key
  | err e => exact key
  | panic => exact key

theorem ExtendedKey.fromStrC_val (H : Hashes) (s : Str) : (ExtendedKey.fromStrC H s).val = ExtendedKey.fromStr H s := by
  unfold ExtendedKey.fromStrC ExtendedKey.fromStr ExtendedKey.fromStrBuf
  simp only [val_bind, decodeCheckC_val]
  rcases decodeCheck H (BYTE_SIZE + 4) s with ⟨buf, r⟩
  cases r with
  | err e => rfl
  | panic => rfl
  | ok len =>
    simp only
    split
    · rfl
    · simp only [val_bind]
      cases ExtendedKey.parsePrefix s buf with
      | err e => rfl
      | panic => rfl
      | ok pfx =>
        simp only [val_bind]
        cases buf[4]? <;> cases tryIntoArr 4 Error.decode ((buf.drop 5).take 4) <;>
          cases tryIntoArr 4 Error.decode ((buf.drop 9).take 4) <;>
          cases tryIntoArr 32 Error.decode ((buf.drop 13).take 32) <;>
          cases tryIntoArr 33 Error.decode ((buf.drop 45).take 33) <;> rfl

theorem ExtendedKey.fromStrC_steps (H : Hashes) (s : Str) : (ExtendedKey.fromStrC H s).steps ≤ s.length + 10000 := by
  unfold ExtendedKey.fromStrC
  have h1 := decodeCheckC_steps H (BYTE_SIZE + 4) s 112 (by decide +kernel)
  have hb := decodeCheck_buf_length H (BYTE_SIZE + 4) s
  have e : BYTE_SIZE = 78 := rfl
  simp only [steps_bind, steps_ticks, decodeCheckC_val]
  generalize decodeCheck H (BYTE_SIZE + 4) s = dc at hb ⊢
  rcases dc with ⟨buf, r⟩
  simp only at hb
  rw [e] at h1 ⊢
  cases r with
  | err _ => simp only [steps_pure]; omega
  | panic => simp only [steps_pure]; omega
  | ok len =>
    simp only
    split
    · simp only [steps_pure]; omega
    · simp only [steps_bind, steps_ticks]
      cases ExtendedKey.parsePrefix s buf with
      | err _ => simp only [steps_pure]; omega
      | panic => simp only [steps_pure]; omega
      | ok pfx =>
        simp only [steps_bind, steps_ticks]
        split <;> simp only [steps_bind, steps_ticks, steps_pure, hb] <;> omega

theorem parseU32DigitsC_val (acc : Nat) (s : Str) : (parseU32DigitsC acc s).val = parseU32Digits acc s := by
  induction s generalizing acc with
  | nil => rfl
  | cons c cs ih =>
    rw [parseU32DigitsC, parseU32Digits]
    simp only [val_bind]
    cases digitVal c with
    | none => rfl
    | some d =>
      simp only
      split
      · exact ih _
      · rfl

theorem parseU32DigitsC_steps (acc : Nat) (s : Str) : (parseU32DigitsC acc s).steps ≤ s.length := by
  induction s generalizing acc with
  | nil => simp [parseU32DigitsC]
  | cons c cs ih =>
    rw [parseU32DigitsC]
    simp only [steps_bind, steps_ticks, List.length_cons]
    cases digitVal c with
    | none => simp
    | some d =>
      simp only
      split
      · have := ih (acc * 10 + d); omega
      · simp

theorem parseU32C_val (s : Str) : (parseU32C s).val = parseU32 s := by
  unfold parseU32C parseU32
  split <;> simp [parseU32DigitsC_val]

theorem parseU32C_steps (s : Str) : (parseU32C s).steps ≤ s.length := by
  unfold parseU32C
  split
  · simp
  · simp
  · exact le_trans (parseU32DigitsC_steps _ _) (by simp)
  · exact parseU32DigitsC_steps _ _

theorem ChildNumber.fromStrC_val (s : Str) : (ChildNumber.fromStrC s).val = ChildNumber.fromStr s := by
  unfold ChildNumber.fromStrC ChildNumber.fromStr
  simp only [val_bind, parseU32C_val]
  cases parseU32 (stripApostrophe s).1 <;> rfl

theorem ChildNumber.fromStrC_steps (s : Str) : (ChildNumber.fromStrC s).steps ≤ s.length + 1 := by
  unfold ChildNumber.fromStrC
  simp only [steps_bind, steps_ticks]
  have h1 := parseU32C_steps (stripApostrophe s).1
  have h2 : (stripApostrophe s).1.length ≤ s.length := by
    unfold stripApostrophe
    split
    · simp
    · exact le_refl _
  split <;> simp only [steps_pure] <;> omega

theorem DerivationPath.parseAllC_val (l : List Str) : (DerivationPath.parseAllC l).val = DerivationPath.parseAll l := by
  induction l with
  | nil => rfl
  | cons s rest ih =>
    rw [DerivationPath.parseAllC, DerivationPath.parseAll]
    simp only [val_bind, val_andThen, ChildNumber.fromStrC_val, ih]
    rfl

/-- All the characters of the pieces and one more for each piece. -/
def pieces (l : List Str) : Nat := (l.map fun s => s.length + 1).sum

theorem DerivationPath.parseAllC_steps (l : List Str) : (DerivationPath.parseAllC l).steps ≤ 2 * pieces l := by
  induction l with
  | nil => simp [DerivationPath.parseAllC]
  | cons s rest ih =>
    rw [DerivationPath.parseAllC]
    simp only [steps_bind, steps_ticks]
    have h1 := ChildNumber.fromStrC_steps s
    have h2 := steps_andThen_le (ChildNumber.fromStrC s)
      (fun c => andThen (DerivationPath.parseAllC rest) fun cs => pure (.ok (c :: cs))) (2 * pieces rest) (fun c _ =>
        le_trans (steps_andThen_le _ _ 0 (fun _ _ => by simp)) (by simpa using ih))
    have e : pieces (s :: rest) = s.length + 1 + pieces rest := by simp [pieces]
    rw [e]
    omega

theorem pieces_splitChar (sep : Char) (s : Str) : pieces (splitChar sep s) = s.length + 1 := by
  induction s with
  | nil => rfl
  | cons c cs ih =>
    rw [splitChar]
    split
    · simp [pieces] at ih ⊢; omega
    · split
      · rename_i h
        rw [h] at ih
        simp [pieces] at ih
      · rename_i w ws h
        rw [h] at ih
        simp [pieces] at ih ⊢; omega

theorem DerivationPath.fromStrC_val (s : Str) : (DerivationPath.fromStrC s).val = DerivationPath.fromStr s := by
  unfold DerivationPath.fromStrC DerivationPath.fromStr
  cases splitChar '/' s with
  | nil => rfl
  | cons first rest =>
    simp only [val_bind]
    split
    · rfl
    · simp only [val_andThen, DerivationPath.parseAllC_val]
      rfl

theorem DerivationPath.fromStrC_steps (s : Str) : (DerivationPath.fromStrC s).steps ≤ 2 * s.length + 2 := by
  have h := pieces_splitChar '/' s
  unfold DerivationPath.fromStrC
  split
  · rename_i first rest hs
    rw [hs] at h
    have e : pieces (first :: rest) = first.length + 1 + pieces rest := by simp [pieces]
    rw [e] at h
    simp only [steps_bind, steps_ticks]
    split
    · simp; omega
    · have h1 := DerivationPath.parseAllC_steps rest
      have h2 := steps_andThen_le (DerivationPath.parseAllC rest)
        (fun p => (pure (.ok ⟨p⟩) : Counted (Res Error DerivationPath))) 0 (fun _ _ => by simp)
      omega
  · simp

end Bip32

namespace Bip39
open Counted

theorem BitWriter.flushC_val (o : Nat) (r : BitVec 32) (i : Bytes) : (BitWriter.flushC o r i).val = BitWriter.flush o r i := by
  induction o using Nat.strong_induction_on generalizing r i with
  | _ o ih =>
    by_cases h : 8 ≤ o
    · obtain ⟨o', rfl⟩ : ∃ o', o = o' + 8 := ⟨o - 8, by omega⟩
      rw [BitWriter.flushC, BitWriter.flush]
      simp only [val_bind]
      exact ih o' (by omega) _ _
    · rw [BitWriter.flushC, BitWriter.flush]
      · rfl
      · intro n hn; omega
      · intro n hn; omega

theorem BitWriter.flushC_steps (o : Nat) (r : BitVec 32) (i : Bytes) : (BitWriter.flushC o r i).steps = o / 8 := by
  induction o using Nat.strong_induction_on generalizing r i with
  | _ o ih =>
    by_cases h : 8 ≤ o
    · obtain ⟨o', rfl⟩ : ∃ o', o = o' + 8 := ⟨o - 8, by omega⟩
      rw [BitWriter.flushC]
      simp only [steps_bind, steps_ticks]
      rw [ih o' (by omega) _ _]
      omega
    · rw [BitWriter.flushC]
      · simp; omega
      · intro n hn; omega

theorem BitWriter.flush_offset (o : Nat) (r : BitVec 32) (i : Bytes) : (BitWriter.flush o r i).offset < 8 := by
  induction o using Nat.strong_induction_on generalizing r i with
  | _ o ih =>
    by_cases h : 8 ≤ o
    · obtain ⟨o', rfl⟩ : ∃ o', o = o' + 8 := ⟨o - 8, by omega⟩
      rw [BitWriter.flush]
      exact ih o' (by omega) _ _
    · rw [BitWriter.flush]
      · simp; omega
      · intro n hn; omega

theorem BitWriter.pushC_val (w : BitWriter) (b : Bits11) : (w.pushC b).val = w.push b := BitWriter.flushC_val _ _ _

theorem pushWordsC_val (m : WordMap) (l : List Str) (w : BitWriter) : (pushWordsC m l w).val = pushWords m l w := by
  induction l generalizing w with
  | nil => rfl
  | cons s rest ih =>
    rw [pushWordsC, pushWords]
    simp only [val_bind]
    cases Language.getBits m s with
    | ok b =>
      simp only [val_bind, BitWriter.pushC_val]
      exact ih _
    | err e => rfl
    | panic => rfl

/-- All the bytes of the words and one more for each word. -/
def wordBytes (l : List Str) : Nat := (l.map fun s => (utf8 s).length + 1).sum

theorem pushWordsC_steps (m : WordMap) (l : List Str) (w : BitWriter) (hw : w.offset < 8) :
    (pushWordsC m l w).steps ≤ 2 * wordBytes l + l.length := by
  induction l generalizing w with
  | nil => simp [pushWordsC]
  | cons s rest ih =>
    rw [pushWordsC]
    have e : wordBytes (s :: rest) = (utf8 s).length + 1 + wordBytes rest := by simp [wordBytes]
    rw [e]
    simp only [steps_bind, steps_ticks, List.length_cons]
    cases Language.getBits m s with
    | ok b =>
      simp only [steps_bind, BitWriter.pushC_val]
      have h1 := ih (w.push b) (BitWriter.flush_offset _ _ _)
      have h2 : (w.pushC b).steps = (w.offset + 11) / 8 := BitWriter.flushC_steps _ _ _
      omega
    | err e => simp; omega
    | panic => simp; omega

theorem utf8_cons (c : Char) (s : Str) : utf8 (c :: s) = String.utf8EncodeChar c ++ utf8 s := rfl

theorem wordBytes_splitChar (s : Str) :
    wordBytes (splitChar ' ' s) = (utf8 s).length + 1 ∧ (splitChar ' ' s).length ≤ (utf8 s).length + 1 := by
  have h1 : ∀ c : Char, 1 ≤ (String.utf8EncodeChar c).length := fun c => by
    rw [String.length_utf8EncodeChar]; exact Char.utf8Size_pos c
  induction s with
  | nil => exact ⟨rfl, by decide⟩
  | cons c cs ih =>
    rw [splitChar, utf8_cons, List.length_append]
    have hc := h1 c
    split
    · rename_i h
      subst h
      have h3 : (String.utf8EncodeChar ' ').length = 1 := by decide
      simp [wordBytes, h3] at ih ⊢
      constructor
      · rw [ih.1]; simp [utf8]; omega
      · omega
    · split
      · rename_i h
        rw [h] at ih
        simp [wordBytes] at ih
      · rename_i w ws h
        rw [h] at ih
        simp [wordBytes, utf8_cons] at ih ⊢
        omega

theorem Mnemonic.phraseToEntropyC_val (H : Hashes) (s : Str) (l : Language) :
    (Mnemonic.phraseToEntropyC H s l).val = Mnemonic.phraseToEntropy H s l := by
  unfold Mnemonic.phraseToEntropyC Mnemonic.phraseToEntropy
  simp only [val_andThen, pushWordsC_val, val_bind, val_pure]
  cases pushWords l.wordmap (splitChar ' ' s) BitWriter.withCapacity with
  | err e => rfl
  | panic => rfl
  | ok bits =>
    simp only [Res.bind, bind]
    cases MnemonicType.forWordCount (bits.len / 11) with
    | err e => rfl
    | panic => rfl
    | ok t =>
      simp only
      split
      · rfl
      · simp only [val_andThen, val_pure, Res.bind]
        cases index bits.intoBytes (t.entropyBits / 8) with
        | err e => rfl
        | panic => rfl
        | ok last =>
          simp only
          cases checksum' last t.checksumBits with
          | err e => rfl
          | panic => rfl
          | ok a =>
            cases checksum' (H.sha256FirstByte (List.take (t.entropyBits / 8) bits.intoBytes)) t.checksumBits with
            | err e => rfl
            | panic => rfl
            | ok b =>
              change (if a ≠ b then pure (Res.err ErrorKind.invalidChecksum)
                else (pure (Res.ok (List.take (t.entropyBits / 8) bits.intoBytes)) : Counted (Res ErrorKind Bytes))).val =
                (if a ≠ b then Res.err ErrorKind.invalidChecksum
                  else Res.ok (List.take (t.entropyBits / 8) bits.intoBytes))
              split <;> rfl

theorem entropyBits_le (t : MnemonicType) : t.entropyBits / 8 ≤ 32 := by cases t <;> decide

theorem Mnemonic.phraseToEntropyC_steps (H : Hashes) (s : Str) (l : Language) :
    (Mnemonic.phraseToEntropyC H s l).steps ≤ 3 * (utf8 s).length + 36 := by
  obtain ⟨h1, h2⟩ := wordBytes_splitChar s
  have h3 := pushWordsC_steps l.wordmap (splitChar ' ' s) BitWriter.withCapacity (by decide)
  unfold Mnemonic.phraseToEntropyC
  refine le_trans (steps_andThen_le _ _ 33 ?_) (by omega)
  intro bits _
  simp only [steps_bind, steps_ticks]
  have : ∀ n, n ≤ 32 → 1 + n ≤ 33 := by omega
  apply this
  refine le_trans (steps_andThen_le _ _ 32 ?_) (by simp)
  intro t _
  split
  · simp
  · refine le_trans (steps_andThen_le _ _ 32 ?_) (by simp)
    intro last _
    refine le_trans (steps_andThen_le _ _ 32 ?_) (by simp)
    intro a _
    simp only [steps_bind, steps_ticks]
    have h4 := entropyBits_le t
    have h5 : (List.take (t.entropyBits / 8) bits.intoBytes).length ≤ 32 := by
      rw [List.length_take]; omega
    have h6 := steps_andThen_le
      (pure (checksum' (H.sha256FirstByte (List.take (t.entropyBits / 8) bits.intoBytes)) t.checksumBits) :
        Counted (Res ErrorKind UInt8))
      (fun expectedChecksum => if a ≠ expectedChecksum then pure (.err .invalidChecksum)
        else (pure (.ok (List.take (t.entropyBits / 8) bits.intoBytes)) : Counted (Res ErrorKind Bytes))) 0
      (fun b _ => by split <;> simp)
    simp only [steps_pure] at h6
    omega

end Bip39
end Kms
