import Verif.Props.Path
/-
Which texts mean the same child number or path (C136).
-/
namespace Kms.Props
open Kms.Bip32 Kms.Spec

theorem digit_char {c : Char} {d : Nat} (h : IsDigit c d) : c = Nat.digitChar d := by
  obtain ⟨h1, h2⟩ := h
  apply Char.ext
  apply UInt32.toNat_inj.mp
  show c.toNat = (Nat.digitChar d).toNat
  rw [h2]
  clear h2
  revert d
  decide

/-- A decimal text is the usual one with zeros before it. -/
theorem decimal_zeros {s : Str} {v : Nat} (h : Decimal s v) : ∃ z, s = List.replicate z '0' ++ decimal v := by
  induction h with
  | one c d hd =>
    refine ⟨0, ?_⟩
    unfold decimal
    rw [Nat.toDigits_of_lt_base hd.1, digit_char hd]
    rfl
  | snoc s v c d _ hd ih =>
    obtain ⟨z, rfl⟩ := ih
    by_cases hv : v = 0
    · subst hv
      refine ⟨z + 1, ?_⟩
      unfold decimal
      rw [Nat.mul_zero, Nat.zero_add, Nat.toDigits_of_lt_base hd.1, digit_char hd, List.replicate_succ']
      rfl
    · refine ⟨z, ?_⟩
      unfold decimal
      rw [Nat.toDigits_eq_if (n := 10 * v + d) (by decide), if_neg (by omega), digit_char hd, List.append_assoc,
        show (10 * v + d) / 10 = v by have := hd.1; omega, show (10 * v + d) % 10 = d by have := hd.1; omega]

theorem zeros_decimal {s : Str} {v : Nat} (h : Decimal s v) (z : Nat) : Decimal (List.replicate z '0' ++ s) v := by
  rw [decimal_iff] at h ⊢
  refine ⟨by simp [h.1], ?_⟩
  induction z with
  | zero => exact h.2
  | succ z ih =>
    rw [List.replicate_succ, List.cons_append]
    exact ih

/-- A text of the child number whose usual text is `t`: `t` with zeros and a plus sign before it. -/
def Padded (s t : Str) : Prop := ∃ sign z, (sign = [] ∨ sign = ['+']) ∧ s = sign ++ List.replicate z '0' ++ t

theorem childText_iff (s : Str) (c : ChildNumber) : ChildText s c.index.toNat c.isHardened ↔ Padded s c.display := by
  constructor
  · rintro ⟨sign, digits, h1, h2, _, rfl⟩
    obtain ⟨z, rfl⟩ := decimal_zeros h2
    exact ⟨sign, z, h1, by unfold ChildNumber.display; simp only [List.append_assoc]⟩
  · rintro ⟨sign, z, h1, rfl⟩
    obtain ⟨_, _, _, _, hi, _⟩ := ((C26_child_number_grammar _).1 c).1 (C25_child_number_text c)
    exact ⟨sign, _, h1, zeros_decimal (decimal_toDigits c.index.toNat) z, hi, by
      unfold ChildNumber.display; simp only [List.append_assoc]⟩

theorem padded_length {s t : Str} (h : Padded s t) : t.length ≤ s.length ∧ (t.length = s.length → s = t) := by
  obtain ⟨sign, z, _, rfl⟩ := h
  simp only [List.length_append, List.length_replicate]
  refine ⟨by omega, fun h => ?_⟩
  have h1 : sign = [] := List.eq_nil_of_length_eq_zero (by omega)
  have h2 : z = 0 := by omega
  subst h1 h2
  rfl

/-- C136. The texts of a child number are the one that is written, and that one with zeros, a plus sign, or a plus sign
and zeros before it.  The texts of a path are `m` and such a text of each child number, each after a slash. -/
theorem C136_texts_of_a_path :
    (∀ (s : Str) (c : ChildNumber), ChildNumber.fromStr s = .ok c ↔
      ∃ sign z, (sign = [] ∨ sign = ['+']) ∧ s = sign ++ List.replicate z '0' ++ c.display) ∧
    (∀ (s : Str) (p : DerivationPath), DerivationPath.fromStr s = .ok p ↔
      ∃ segs : List Str, s = 'm' :: segs.flatMap (fun t => '/' :: t) ∧
        List.Forall₂ (fun t (c : ChildNumber) =>
          ∃ sign z, (sign = [] ∨ sign = ['+']) ∧ t = sign ++ List.replicate z '0' ++ c.display) segs p.path) := by
  refine ⟨fun s c => ((C26_child_number_grammar s).1 c).trans (childText_iff s c), fun s p => ?_⟩
  rw [(C28_path_grammar s).1 p]
  simp only [childText_iff]
  rfl

theorem display_flat (p : DerivationPath) : p.display = 'm' :: p.path.flatMap (fun c => '/' :: c.display) := by
  unfold DerivationPath.display
  have : ∀ (l : List ChildNumber) (a : Str), l.foldl (fun out c => out ++ ('/' :: c.display)) a =
      a ++ l.flatMap (fun c => '/' :: c.display) := by
    intro l
    induction l with
    | nil => simp
    | cons c l ih => intro a; rw [List.foldl_cons, ih, List.flatMap_cons, List.append_assoc]
  rw [this]
  rfl

theorem flat_length {segs : List Str} {l : List ChildNumber}
    (h : List.Forall₂ (fun t (c : ChildNumber) => Padded t c.display) segs l) :
    (l.flatMap (fun c => '/' :: c.display)).length ≤ (segs.flatMap (fun t => '/' :: t)).length ∧
    ((l.flatMap (fun c => '/' :: c.display)).length = (segs.flatMap (fun t => '/' :: t)).length →
      segs.flatMap (fun t => '/' :: t) = l.flatMap (fun c => '/' :: c.display)) := by
  induction h with
  | nil => exact ⟨Nat.le_refl _, fun _ => rfl⟩
  | cons h1 _ ih =>
    obtain ⟨a, b⟩ := padded_length h1
    obtain ⟨i, j⟩ := ih
    simp only [List.flatMap_cons, List.length_append, List.length_cons]
    refine ⟨by omega, fun h => ?_⟩
    rw [j (by omega), b (by omega)]

theorem flat_filter {segs : List Str} {l : List ChildNumber}
    (h : List.Forall₂ (fun t (c : ChildNumber) => Padded t c.display) segs l) :
    (segs.flatMap (fun t => '/' :: t)).filter (fun x => x ≠ '+' ∧ x ≠ '0') =
      (l.flatMap (fun c => '/' :: c.display)).filter (fun x => x ≠ '+' ∧ x ≠ '0') := by
  induction h with
  | nil => rfl
  | cons h1 _ ih =>
    obtain ⟨sign, z, hs, rfl⟩ := h1
    rw [List.flatMap_cons, List.flatMap_cons, List.filter_append, List.filter_append, ih, List.filter_cons,
      List.filter_cons, List.filter_append, List.filter_append]
    rcases hs with rfl | rfl <;> simp

theorem digit_mem {x : Char} (h : 48 ≤ x.toNat ∧ x.toNat ≤ 57) :
    x ∈ ['m', '/', '+', '\'', '0', '1', '2', '3', '4', '5', '6', '7', '8', '9'] := by
  have hx : IsDigit x (x.toNat - 48) := ⟨by omega, by show x.toNat = 48 + _; omega⟩
  rw [digit_char hx]
  have hd := hx.1
  generalize x.toNat - 48 = d at hd
  clear hx h
  revert d
  decide

/-- C136. So the text that is written is the only shortest one, and two texts of the same path differ only in plus signs
and zeros: no other character may be used, in particular `h` and `H` do not mark hardened children. -/
theorem C136_written_text_is_shortest :
    (∀ (s : Str) (c : ChildNumber), ChildNumber.fromStr s = .ok c →
      c.display.length ≤ s.length ∧ (c.display.length = s.length → s = c.display)) ∧
    (∀ (s : Str) (p : DerivationPath), DerivationPath.fromStr s = .ok p →
      p.display.length ≤ s.length ∧ (p.display.length = s.length → s = p.display)) ∧
    (∀ (s s' : Str) (p : DerivationPath), DerivationPath.fromStr s = .ok p → DerivationPath.fromStr s' = .ok p →
      s.filter (fun x => x ≠ '+' ∧ x ≠ '0') = s'.filter (fun x => x ≠ '+' ∧ x ≠ '0')) ∧
    (∀ (s : Str) (p : DerivationPath), DerivationPath.fromStr s = .ok p →
      ∀ x ∈ s, x ∈ ['m', '/', '+', '\'', '0', '1', '2', '3', '4', '5', '6', '7', '8', '9']) := by
  have key : ∀ (s : Str) (p : DerivationPath), DerivationPath.fromStr s = .ok p →
      ∃ segs : List Str, s = 'm' :: segs.flatMap (fun t => '/' :: t) ∧
        List.Forall₂ (fun t (c : ChildNumber) => Padded t c.display) segs p.path :=
    fun s p h => (C136_texts_of_a_path.2 s p).1 h
  refine ⟨fun s c h => padded_length ((C136_texts_of_a_path.1 s c).1 h), ?_, ?_, ?_⟩
  · intro s p h
    obtain ⟨segs, rfl, hs⟩ := key s p h
    rw [display_flat]
    obtain ⟨h1, h2⟩ := flat_length hs
    simp only [List.length_cons, Nat.add_le_add_iff_right, Nat.add_right_cancel_iff]
    exact ⟨h1, fun h => by rw [h2 h]⟩
  · have one : ∀ (s : Str) (p : DerivationPath), DerivationPath.fromStr s = .ok p →
        s.filter (fun x => x ≠ '+' ∧ x ≠ '0') = p.display.filter (fun x => x ≠ '+' ∧ x ≠ '0') := by
      intro s p h
      obtain ⟨segs, rfl, hs⟩ := key s p h
      rw [display_flat, List.filter_cons, List.filter_cons, flat_filter hs]
    intro s s' p h h'
    rw [one s p h, one s' p h']
  · intro s p h x hx
    obtain ⟨segs, rfl, hs⟩ := key s p h
    rw [List.mem_cons, List.mem_flatMap] at hx
    rcases hx with rfl | ⟨t, ht, hx⟩
    · decide
    rw [List.mem_cons] at hx
    rcases hx with rfl | hx
    · decide
    obtain ⟨c, hc⟩ : ∃ c : ChildNumber, Padded t c.display := by
      clear h
      generalize p.path = l at hs
      induction hs with
      | nil => cases ht
      | cons h1 _ ih =>
        rcases List.mem_cons.1 ht with rfl | ht
        · exact ⟨_, h1⟩
        · exact ih ht
    obtain ⟨sign, digits, h1, h2, _, rfl⟩ := (childText_iff t c).2 hc
    simp only [List.mem_append] at hx
    rcases hx with (hx | hx) | hx
    · rcases h1 with rfl | rfl
      · cases hx
      · rw [List.mem_singleton.1 hx]; decide
    · have := decimal_chars h2 x hx
      exact digit_mem this
    · split at hx
      · rw [List.mem_singleton.1 hx]; decide
      · cases hx

-- texts of the path m/44'/0, and texts that are refused
example : ["m/44'/0", "m/+44'/0", "m/0044'/+000", "m/+044'/00"].all
      (fun s => decide (DerivationPath.fromStr s.toList = .ok ⟨[⟨0x8000002C#32⟩, ⟨0⟩]⟩)) = true ∧
    ["m/44h/0", "m/44H/0", "m/-44'/0", "m/0+44'/0", "m/ 44'/0", "M/44'/0"].all
      (fun s => decide (∀ p ∈ [(⟨[⟨0x8000002C#32⟩, ⟨0⟩]⟩ : DerivationPath)], DerivationPath.fromStr s.toList ≠ .ok p)) = true := by
  decide +kernel

end Kms.Props
