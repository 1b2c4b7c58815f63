import Verif.Model.ChildNumber
import Verif.Spec.Path
import Verif.Proofs.Text
import Mathlib.Data.Nat.Bitwise
import Mathlib.Data.List.Induction
import Mathlib.Tactic.Ring
import Mathlib.Tactic.Linarith
/-
Child numbers and derivation paths.
-/
namespace Kms

/-! ### big-endian numbers -/

theorem beNat_append (a b : Bytes) : beNat (a ++ b) = beNat a * 256 ^ b.length + beNat b := by
  have key : ∀ (b : Bytes) (x : Nat), b.foldl (fun a b => a * 256 + b.toNat) x =
      x * 256 ^ b.length + b.foldl (fun a b => a * 256 + b.toNat) 0 := by
    intro b
    induction b with
    | nil => intro x; simp
    | cons c b ih =>
      intro x
      rw [List.foldl_cons, List.foldl_cons, ih, ih (0 * 256 + c.toNat), List.length_cons]
      ring
  unfold beNat
  rw [List.foldl_append, key]

theorem beNat_cons (a : UInt8) (b : Bytes) : beNat (a :: b) = a.toNat * 256 ^ b.length + beNat b := by
  have := beNat_append [a] b
  simpa [beNat] using this

theorem beNat_lt (b : Bytes) : beNat b < 256 ^ b.length := by
  induction b with
  | nil => simp [beNat]
  | cons a b ih =>
    rw [beNat_cons, List.length_cons, Nat.pow_succ]
    have := a.toNat_lt
    have h1 : a.toNat * 256 ^ b.length ≤ 255 * 256 ^ b.length := Nat.mul_le_mul_right _ (by omega)
    omega

theorem beNat_natBE (n v : Nat) : beNat (natBE n v) = v % 256 ^ n := by
  induction n with
  | zero => simp [natBE, beNat, Nat.mod_one]
  | succ n ih =>
    rw [natBE, beNat_cons, natBE_length, ih, UInt8.toNat_ofNat', show 256 ^ (n + 1) = 256 ^ n * 256 from rfl,
      Nat.mod_mul (a := 256 ^ n), Nat.add_comm, Nat.mul_comm]

theorem natBE_beNat (b : Bytes) : natBE b.length (beNat b) = b := by
  have key : ∀ (b : Bytes) (k : Nat), natBE b.length (k * 256 ^ b.length + beNat b) = b := by
    intro b
    induction b with
    | nil => intro k; rfl
    | cons a b ih =>
      intro k
      rw [List.length_cons, natBE, beNat_cons]
      have hlt := beNat_lt b
      have hp : 0 < 256 ^ b.length := Nat.pow_pos (by decide)
      have e : k * 256 ^ (b.length + 1) + (a.toNat * 256 ^ b.length + beNat b) =
          (k * 256 + a.toNat) * 256 ^ b.length + beNat b := by ring
      rw [e]
      congr 1
      · rw [Nat.add_comm, Nat.add_mul_div_right _ _ hp, Nat.div_eq_of_lt hlt, Nat.zero_add]
        rw [← UInt8.toNat_inj, UInt8.toNat_ofNat']
        have := a.toNat_lt
        omega
      · exact ih _
  have := key b 0
  simpa using this

theorem natBE_inj {n v w : Nat} (hv : v < 256 ^ n) (hw : w < 256 ^ n) (h : natBE n v = natBE n w) : v = w := by
  have := congrArg beNat h
  rwa [beNat_natBE, beNat_natBE, Nat.mod_eq_of_lt hv, Nat.mod_eq_of_lt hw] at this

theorem beNat_inj {a b : Bytes} (hl : a.length = b.length) (h : beNat a = beNat b) : a = b := by
  rw [← natBE_beNat a, ← natBE_beNat b, hl, h]

/-! ### decimal numbers -/

/-- Value of a digit string, without overflow. -/
def digitsVal : Nat → Str → Option Nat
  | acc, [] => some acc
  | acc, c :: cs => match digitVal c with
    | none => none
    | some d => digitsVal (acc * 10 + d) cs

theorem digitsVal_ge (s : Str) (acc v : Nat) (h : digitsVal acc s = some v) : acc ≤ v := by
  induction s generalizing acc with
  | nil => simp [digitsVal] at h; omega
  | cons c s ih =>
    unfold digitsVal at h
    split at h
    · simp at h
    · have := ih _ h; omega

theorem parseU32Digits_iff (s : Str) (acc v : Nat) (ha : acc < 2 ^ 32) :
    parseU32Digits acc s = some v ↔ digitsVal acc s = some v ∧ v < 2 ^ 32 := by
  induction s generalizing acc with
  | nil =>
    simp only [parseU32Digits, digitsVal, Option.some.injEq]
    omega
  | cons c s ih =>
    unfold parseU32Digits digitsVal
    cases hd : digitVal c with
    | none => simp
    | some d =>
      simp only
      split
      · rename_i hlt
        rw [ih _ hlt.2]
      · rename_i hge
        simp only [reduceCtorEq, false_iff]
        rintro ⟨h1, h2⟩
        have := digitsVal_ge _ _ _ h1
        omega

theorem digitsVal_append (s t : Str) (acc : Nat) :
    digitsVal acc (s ++ t) = (digitsVal acc s).bind (fun v => digitsVal v t) := by
  induction s generalizing acc with
  | nil => rfl
  | cons c s ih =>
    rw [List.cons_append]
    conv_lhs => unfold digitsVal
    rw [show digitsVal acc (c :: s) = match digitVal c with
      | none => none
      | some d => digitsVal (acc * 10 + d) s from rfl]
    cases digitVal c with
    | none => rfl
    | some d => exact ih _

theorem digitVal_iff (c : Char) (d : Nat) : digitVal c = some d ↔ Spec.IsDigit c d := by
  unfold digitVal Spec.IsDigit
  have : '0'.toNat = 48 := rfl
  rw [this]
  split
  · rw [Option.some.injEq]; omega
  · simp only [reduceCtorEq, false_iff]; omega

theorem decimal_iff (s : Str) (v : Nat) : Spec.Decimal s v ↔ s ≠ [] ∧ digitsVal 0 s = some v := by
  constructor
  · intro h
    induction h with
    | one c d hd =>
      refine ⟨by simp, ?_⟩
      simp [digitsVal, (digitVal_iff c d).mpr hd]
    | snoc s v c d _ hd ih =>
      refine ⟨by simp, ?_⟩
      rw [digitsVal_append, ih.2]
      simp [digitsVal, (digitVal_iff c d).mpr hd]
      omega
  · rintro ⟨hne, h⟩
    induction s using List.reverseRecOn generalizing v with
    | nil => exact absurd rfl hne
    | append_singleton s c ih =>
      rw [digitsVal_append] at h
      rw [Option.bind_eq_some_iff] at h
      obtain ⟨w, hw, h⟩ := h
      simp only [digitsVal] at h
      cases hd : digitVal c with
      | none => rw [hd] at h; simp at h
      | some d =>
        rw [hd] at h
        simp at h
        subst h
        by_cases hs : s = []
        · subst hs
          simp [digitsVal] at hw
          subst hw
          simp only [List.nil_append, Nat.zero_mul, Nat.zero_add]
          exact .one c d ((digitVal_iff c d).mp hd)
        · rw [Nat.mul_comm]
          exact .snoc s w c d (ih w hs hw) ((digitVal_iff c d).mp hd)

theorem digitChar_isDigit : ∀ n < 10, Spec.IsDigit (Nat.digitChar n) n := by
  unfold Spec.IsDigit; decide

theorem decimal_toDigits (n : Nat) : Spec.Decimal (decimal n) n := by
  unfold decimal
  induction n using Nat.strong_induction_on with
  | _ n ih =>
    rw [Nat.toDigits_eq_if (by decide)]
    split
    · rename_i h
      exact .one _ _ (digitChar_isDigit n h)
    · rename_i h
      have := ih (n / 10) (by omega)
      have h2 := Spec.Decimal.snoc _ _ _ _ this (digitChar_isDigit (n % 10) (by omega))
      rwa [Nat.div_add_mod] at h2

theorem decimal_chars {s : Str} {v : Nat} (h : Spec.Decimal s v) : ∀ c ∈ s, 48 ≤ c.toNat ∧ c.toNat ≤ 57 := by
  have e : '0'.toNat = 48 := rfl
  induction h with
  | one c d hd => intro x hx; simp at hx; subst hx; unfold Spec.IsDigit at hd; omega
  | snoc s v c d _ hd ih =>
    intro x hx
    rw [List.mem_append] at hx
    rcases hx with hx | hx
    · exact ih x hx
    · simp at hx; subst hx; unfold Spec.IsDigit at hd; omega

theorem parseU32_iff (s : Str) (v : Nat) :
    parseU32 s = some v ↔ v < 2 ^ 32 ∧ ∃ sign digits, (sign = [] ∨ sign = ['+']) ∧ Spec.Decimal digits v ∧
      s = sign ++ digits := by
  constructor
  · intro h
    unfold parseU32 at h
    split at h
    · simp at h
    · simp at h
    · rename_i rest hne
      rw [parseU32Digits_iff _ _ _ (by decide)] at h
      refine ⟨h.2, ['+'], rest, Or.inr rfl, (decimal_iff _ _).mpr ⟨fun e => hne e, h.1⟩, rfl⟩
    · rename_i hne _ _
      rw [parseU32Digits_iff _ _ _ (by decide)] at h
      exact ⟨h.2, [], s, Or.inl rfl, (decimal_iff _ _).mpr ⟨fun e => hne e, h.1⟩, rfl⟩
  · rintro ⟨hv, sign, digits, hs, hd, rfl⟩
    obtain ⟨hne, hval⟩ := (decimal_iff _ _).mp hd
    have hp := (parseU32Digits_iff digits 0 v (by decide)).mpr ⟨hval, hv⟩
    rcases hs with rfl | rfl
    · cases digits with
      | nil => exact absurd rfl hne
      | cons c cs =>
        have hc := decimal_chars hd c (by simp)
        have : c ≠ '+' := by rintro rfl; revert hc; decide
        unfold parseU32
        split
        · simp at *
        · rename_i heq; simp at heq; exact absurd heq.1 this
        · rename_i heq; simp at heq; exact absurd heq.1 this
        · exact hp
    · cases digits with
      | nil => exact absurd rfl hne
      | cons c cs => exact hp

/-! ### child numbers -/
namespace Bip32
namespace ChildNumber

theorem flag_toNat : HARDENED_FLAG.toNat = 2 ^ 31 := by decide

theorem index_toNat (c : ChildNumber) : c.index.toNat = c.n.toNat % 2 ^ 31 := by
  unfold index
  rw [BitVec.toNat_and, show (~~~HARDENED_FLAG).toNat = 2 ^ 31 - 1 by decide, Nat.and_two_pow_sub_one_eq_mod]

theorem isHardened_iff (c : ChildNumber) : c.isHardened = true ↔ 2 ^ 31 ≤ c.n.toNat := by
  have hlt : c.n.toNat < 2 ^ 32 := c.n.isLt
  unfold isHardened
  rw [bne_iff_ne, ne_eq, ← BitVec.toNat_inj, BitVec.toNat_and, flag_toNat, Nat.and_two_pow]
  have : c.n.toNat.testBit 31 = decide (2 ^ 31 ≤ c.n.toNat) := by
    rw [Nat.testBit_eq_decide_div_mod_eq]
    congr 1
    rw [eq_iff_iff]
    omega
  rw [this]
  by_cases h : 2 ^ 31 ≤ c.n.toNat <;> simp [h]

theorem new_spec (i : BitVec 32) (h : Bool) :
    new i h = if i.toNat < 2 ^ 31 then .ok ⟨BitVec.ofNat 32 (i.toNat + if h then 2 ^ 31 else 0)⟩ else .err .childNumber := by
  unfold new
  by_cases hi : i.toNat < 2 ^ 31
  · rw [if_pos hi, if_neg (by show ¬ HARDENED_FLAG ≤ i; rw [BitVec.le_def, flag_toNat]; omega)]
    cases h with
    | true =>
      rw [if_pos rfl, if_pos rfl]
      have key : i ||| HARDENED_FLAG = BitVec.ofNat 32 (i.toNat + 2 ^ 31) := ?_
      · rw [key]
      apply BitVec.eq_of_toNat_eq
      rw [BitVec.toNat_or, flag_toNat, BitVec.toNat_ofNat, Nat.mod_eq_of_lt (by omega)]
      have := Nat.two_pow_add_eq_or_of_lt hi 1
      rw [Nat.mul_one] at this
      rw [Nat.or_comm, ← this, Nat.add_comm]
    | false => simp
  · rw [if_neg hi, if_pos (by show HARDENED_FLAG ≤ i; rw [BitVec.le_def, flag_toNat]; omega)]

/-- A child number is its index and its hardened flag. -/
theorem toNat_eq (c : ChildNumber) : c.n.toNat = c.index.toNat + if c.isHardened then 2 ^ 31 else 0 := by
  have hlt : c.n.toNat < 2 ^ 32 := c.n.isLt
  rw [index_toNat]
  split
  · rename_i h; rw [isHardened_iff] at h; omega
  · rename_i h; rw [isHardened_iff] at h; omega

theorem ext_of {c d : ChildNumber} (h1 : c.index = d.index) (h2 : c.isHardened = d.isHardened) : c = d := by
  have := toNat_eq c
  rw [h1, h2, ← toNat_eq d] at this
  cases c; cases d
  exact congrArg _ (BitVec.eq_of_toNat_eq this)

theorem mk_index (i : Nat) (h : Bool) (hi : i < 2 ^ 31) :
    (ChildNumber.mk (BitVec.ofNat 32 (i + if h then 2 ^ 31 else 0))).index.toNat = i ∧
    (ChildNumber.mk (BitVec.ofNat 32 (i + if h then 2 ^ 31 else 0))).isHardened = h := by
  constructor
  · rw [index_toNat, BitVec.toNat_ofNat]
    cases h <;> simp <;> omega
  · rw [Bool.eq_iff_iff, isHardened_iff, BitVec.toNat_ofNat]
    cases h <;> simp <;> omega

theorem stripApostrophe_eq (s t : Str) (h : Bool) (ht : h = false → s.getLast? ≠ some '\'')
    (hs : s = t ++ if h then ['\''] else []) : stripApostrophe s = (t, h) := by
  subst hs
  unfold stripApostrophe
  cases h with
  | true => simp
  | false => simp at ht; simp [ht]

theorem stripApostrophe_inv (s : Str) : s = (stripApostrophe s).1 ++ if (stripApostrophe s).2 then ['\''] else [] := by
  unfold stripApostrophe
  split
  · rename_i h
    simp only [if_true]
    have hne : s ≠ [] := by rintro rfl; simp at h
    conv_lhs => rw [← List.dropLast_concat_getLast hne]
    rw [List.getLast?_eq_some_getLast hne] at h
    simp at h
    rw [h]
  · simp

theorem fromStr_ok_iff (s : Str) (c : ChildNumber) :
    fromStr s = .ok c ↔ Spec.ChildText s c.index.toNat c.isHardened := by
  constructor
  · intro h
    unfold fromStr at h
    simp only at h
    have hinv := stripApostrophe_inv s
    generalize stripApostrophe s = p at *
    obtain ⟨t, b⟩ := p
    simp only at h hinv
    cases hp : parseU32 t with
    | none => rw [hp] at h; simp at h
    | some i =>
      rw [hp] at h
      simp only at h
      obtain ⟨hi, sign, digits, hs, hd, rfl⟩ := (parseU32_iff _ _).mp hp
      rw [new_spec, BitVec.toNat_ofNat, Nat.mod_eq_of_lt hi] at h
      split at h
      · rename_i hi'
        simp only [Res.ok.injEq] at h
        subst h
        obtain ⟨e1, e2⟩ := mk_index i b hi'
        rw [e1, e2]
        exact ⟨sign, digits, hs, hd, hi', hinv⟩
      · simp at h
  · rintro ⟨sign, digits, hs, hd, hi, hc⟩
    have hp : parseU32 (sign ++ digits) = some c.index.toNat :=
      (parseU32_iff _ _).mpr ⟨by omega, sign, digits, hs, hd, rfl⟩
    have hst : stripApostrophe s = (sign ++ digits, c.isHardened) := by
      apply stripApostrophe_eq _ _ _ _ hc
      intro hf
      rw [hf] at hc
      simp at hc
      rw [hc]
      have hne : digits ≠ [] := ((decimal_iff _ _).mp hd).1
      rw [List.getLast?_append, List.getLast?_eq_some_getLast hne, Option.some_or]
      intro e
      simp at e
      have := decimal_chars hd _ (List.getLast_mem hne)
      rw [e] at this
      revert this; decide
    unfold fromStr
    simp only [hst, hp]
    rw [new_spec, BitVec.toNat_ofNat, Nat.mod_eq_of_lt (by omega), if_pos hi]
    rw [← toNat_eq]
    simp

theorem fromStr_err (s : Str) (h : ∀ c, fromStr s ≠ .ok c) : fromStr s = .err .childNumber := by
  unfold fromStr at h ⊢
  simp only at h ⊢
  cases hp : parseU32 (stripApostrophe s).1 with
  | none => rfl
  | some i =>
    rw [hp] at h
    simp only at h ⊢
    rw [new_spec] at h ⊢
    split
    · rename_i hi; rw [if_pos hi] at h; exact absurd rfl (h _)
    · rfl

theorem display_text (c : ChildNumber) : Spec.ChildText c.display c.index.toNat c.isHardened :=
  ⟨[], decimal c.index.toNat, Or.inl rfl, decimal_toDigits _, by rw [index_toNat]; omega, rfl⟩

theorem fromStr_display (c : ChildNumber) : fromStr c.display = .ok c := (fromStr_ok_iff _ _).mpr (display_text c)

theorem display_no_slash (c : ChildNumber) : '/' ∉ c.display := by
  intro h
  unfold display at h
  rw [List.mem_append] at h
  rcases h with h | h
  · have := decimal_chars (decimal_toDigits c.index.toNat) _ h
    revert this; decide
  · split at h <;> simp at h

end ChildNumber

namespace DerivationPath

theorem parseAll_ok_iff (ss : List Str) (cs : List ChildNumber) :
    parseAll ss = .ok cs ↔ List.Forall₂ (fun s c => ChildNumber.fromStr s = .ok c) ss cs := by
  induction ss generalizing cs with
  | nil =>
    cases cs with
    | nil => exact ⟨fun _ => .nil, fun _ => rfl⟩
    | cons c cs => exact ⟨fun h => by simp [parseAll] at h, fun h => by cases h⟩
  | cons s ss ih =>
    unfold parseAll
    simp only [Res.bind_eq_ok]
    constructor
    · rintro ⟨c, hc, cs', hcs', h⟩
      simp at h
      subst h
      exact .cons hc ((ih _).mp hcs')
    · intro h
      cases h with
      | cons hc hcs => exact ⟨_, hc, _, (ih _).mpr hcs, rfl⟩

theorem parseAll_err (ss : List Str) (h : ∀ cs, parseAll ss ≠ .ok cs) : parseAll ss = .err .childNumber := by
  induction ss with
  | nil => exact absurd rfl (h [])
  | cons s ss ih =>
    unfold parseAll at h ⊢
    cases hs : ChildNumber.fromStr s with
    | ok c =>
      rw [hs] at h
      simp only [Res.ok_bind] at h ⊢
      cases hp : parseAll ss with
      | ok cs => rw [hp] at h; simp at h
      | err e =>
        have := ih (by rw [hp]; simp)
        rw [hp] at this
        simp at this
        subst this
        rfl
      | panic =>
        have := ih (by rw [hp]; simp)
        rw [hp] at this
        simp at this
    | err e =>
      have := ChildNumber.fromStr_err s (by rw [hs]; simp)
      rw [hs] at this
      simp at this
      subst this
      rfl
    | panic =>
      have := ChildNumber.fromStr_err s (by rw [hs]; simp)
      rw [hs] at this
      simp at this

theorem display_eq (p : DerivationPath) : p.display = join ['/'] (['m'] :: p.path.map ChildNumber.display) := by
  unfold display join
  simp only
  rw [List.foldl_map]
  congr 1
  funext a b
  simp

end DerivationPath
end Bip32
end Kms
