import Verif.Model.Base58
import Verif.Spec.Base58
import Verif.Proofs.ChildNumber
import Mathlib.Data.Nat.Digits.Lemmas
import Mathlib.Data.List.TakeWhile
import Mathlib.Tactic.Ring
import Mathlib.Tactic.Linarith
/-
The loops of Base58 compute positional digits.
-/
namespace Kms.Base58
open Nat (ofDigits digits)

theorem mulAdd_length (mul base : Nat) (ds : List Nat) (c : Nat) : (mulAdd mul base ds c).1.length = ds.length := by
  induction ds generalizing c with
  | nil => rfl
  | cons d ds ih => simp [mulAdd, ih]

theorem mulAdd_lt {mul base : Nat} (hb : 0 < base) (ds : List Nat) (c : Nat) :
    ∀ x ∈ (mulAdd mul base ds c).1, x < base := by
  induction ds generalizing c with
  | nil => simp [mulAdd]
  | cons d ds ih =>
    intro x hx
    simp only [mulAdd, List.mem_cons] at hx
    rcases hx with h | h
    · rw [h]; exact Nat.mod_lt _ hb
    · exact ih _ x h

theorem mulAdd_value (mul base : Nat) (ds : List Nat) (c : Nat) :
    ofDigits base (mulAdd mul base ds c).1 + base ^ ds.length * (mulAdd mul base ds c).2 =
      mul * ofDigits base ds + c := by
  induction ds generalizing c with
  | nil => simp [mulAdd]
  | cons d ds ih =>
    simp only [mulAdd, Nat.ofDigits_cons, List.length_cons]
    have h := ih ((c + d * mul) / base)
    have h2 := Nat.mod_add_div (c + d * mul) base
    generalize ofDigits base ds = D at *
    generalize (mulAdd mul base ds ((c + d * mul) / base)).2 = R at *
    generalize ofDigits base (mulAdd mul base ds ((c + d * mul) / base)).1 = L at *
    generalize (c + d * mul) / base = q at *
    generalize (c + d * mul) % base = r at *
    have e1 : base ^ (ds.length + 1) = base * base ^ ds.length := by ring
    rw [e1]
    calc r + base * L + base * base ^ ds.length * R = r + base * (L + base ^ ds.length * R) := by ring
      _ = r + base * (mul * D + q) := by rw [h]
      _ = (r + base * q) + base * (mul * D) := by ring
      _ = mul * (d + base * D) + c := by rw [h2]; ring

/-- The carry loop writes the digits of the carry if they fit. -/
theorem pushCarry_spec {base : Nat} (hb : 1 < base) (cap fuel : Nat) (ds : List Nat) (c : Nat) (hf : c ≤ fuel)
    (hl : ds.length ≤ cap) :
    ((ds ++ digits base c).length ≤ cap → pushCarry base cap fuel ds c = (ds ++ digits base c, true)) ∧
    (cap < (ds ++ digits base c).length → (pushCarry base cap fuel ds c).2 = false) := by
  induction fuel generalizing ds c with
  | zero =>
    have : c = 0 := by omega
    subst this
    simp [pushCarry]
    omega
  | succ n ih =>
    rw [pushCarry]
    by_cases hc : c > 0
    · rw [if_pos hc, Nat.digits_def' hb hc]
      by_cases hd : ds.length = cap
      · rw [if_pos hd]
        constructor
        · intro h
          simp only [List.length_append, List.length_cons] at h
          omega
        · intro _; rfl
      · rw [if_neg hd]
        have hq : c / base ≤ n := by
          have := Nat.div_lt_self hc hb
          omega
        have := ih (ds ++ [c % base]) (c / base) hq (by simp; omega)
        simpa using this
    · have : c = 0 := by omega
      subst this
      simp
      omega

theorem last_ne_zero {base : Nat} (hb : 1 < base) (l : List Nat) (hl : ∀ x ∈ l, x < base) (hne : l ≠ [])
    (hv : base ^ (l.length - 1) ≤ ofDigits base l) : l.getLast hne ≠ 0 := by
  intro h0
  have hsplit : l = l.dropLast ++ [l.getLast hne] := (List.dropLast_append_getLast hne).symm
  have hlt : ofDigits base l.dropLast < base ^ l.dropLast.length :=
    Nat.ofDigits_lt_base_pow_length hb (fun x hx => hl x (List.mem_of_mem_dropLast hx))
  have : ofDigits base l = ofDigits base l.dropLast := by
    conv_lhs => rw [hsplit, Nat.ofDigits_append, h0]
    simp
  rw [this] at hv
  rw [List.length_dropLast] at hlt
  omega

/-- The digits of `mul * v + c` from the digits of `v`. -/
theorem step_spec {mul base : Nat} (hb : 1 < base) (hm : 0 < mul) (cap v c : Nat) (hl : (digits base v).length ≤ cap) :
    ((digits base (mul * v + c)).length ≤ cap → step mul base cap (digits base v) c = (digits base (mul * v + c), true)) ∧
    (cap < (digits base (mul * v + c)).length → (step mul base cap (digits base v) c).2 = false) := by
  set ds := digits base v with hds
  set r := mulAdd mul base ds c with hr
  have hval := mulAdd_value mul base ds c
  rw [← hr, hds, Nat.ofDigits_digits, ← hds] at hval
  have hlen : r.1.length = ds.length := mulAdd_length _ _ _ _
  have hlt : ∀ x ∈ r.1, x < base := mulAdd_lt (by omega) _ _
  have key : digits base (mul * v + c) = r.1 ++ digits base r.2 := by
    have hof : ofDigits base (r.1 ++ digits base r.2) = mul * v + c := by
      rw [Nat.ofDigits_append, Nat.ofDigits_digits, hlen, hval]
    rw [← hof]
    apply Nat.digits_ofDigits base hb
    · intro l hmem
      rw [List.mem_append] at hmem
      rcases hmem with h | h
      · exact hlt _ h
      · exact Nat.digits_lt_base hb h
    · intro hne
      by_cases h2 : r.2 = 0
      · have hne1 : r.1 ≠ [] := by
          intro h; apply hne; rw [h, h2]; simp
        have : (r.1 ++ digits base r.2) = r.1 := by rw [h2]; simp
        have hg : ∀ (l : List Nat) (h : l ≠ []), l = r.1 → l.getLast h = r.1.getLast hne1 := by
          intro l h e; subst e; rfl
        rw [hg _ _ this]
        apply last_ne_zero hb _ hlt hne1
        rw [h2, Nat.mul_zero, Nat.add_zero] at hval
        rw [hval, hlen]
        have hdne : ds ≠ [] := by
          intro h; apply hne1; apply List.eq_nil_of_length_eq_zero; rw [hlen, h]; rfl
        have hv0 : v ≠ 0 := by
          intro h; apply hdne; rw [hds, h]; simp
        have h1 : base ^ (ds.length - 1) ≤ v := by
          have := Nat.base_pow_length_digits_le' (base - 2) v hv0
          have hbb : base - 2 + 2 = base := by omega
          rw [hbb, ← hds] at this
          have hp : ds.length = (ds.length - 1) + 1 := by
            have := List.length_pos_iff.mpr hdne
            omega
          rw [hp, Nat.pow_succ, Nat.mul_comm] at this
          exact Nat.le_of_mul_le_mul_left this (by omega)
        calc base ^ (ds.length - 1) ≤ v := h1
          _ = 1 * v := by rw [Nat.one_mul]
          _ ≤ mul * v := Nat.mul_le_mul_right _ hm
          _ ≤ mul * v + c := Nat.le_add_right _ _
      · have hdn : digits base r.2 ≠ [] := Nat.digits_ne_nil_iff_ne_zero.mpr h2
        rw [List.getLast_append_of_ne_nil _ hdn]
        exact Nat.getLast_digit_ne_zero base h2
  have hp := pushCarry_spec hb cap r.2 r.1 r.2 (le_refl _) (by rw [hlen]; exact hl)
  rw [← key] at hp
  exact hp

theorem digits_len_mono {base a b : Nat} (h : a ≤ b) : (digits base a).length ≤ (digits base b).length :=
  Nat.le_digits_len_le base a b h

/-- The number reached after reading more bytes. -/
def foldBytes (v : Nat) (b : Bytes) : Nat := b.foldl (fun v x => 256 * v + x.toNat) v

theorem foldBytes_ge (v : Nat) (b : Bytes) : v ≤ foldBytes v b := by
  induction b generalizing v with
  | nil => exact le_refl _
  | cons x b ih =>
    have h := ih (256 * v + x.toNat)
    have h2 : foldBytes v (x :: b) = foldBytes (256 * v + x.toNat) b := rfl
    omega

theorem encodeLoop_spec (cap : Nat) (b : Bytes) (v : Nat) (hl : (digits 58 v).length ≤ cap) :
    ((digits 58 (foldBytes v b)).length ≤ cap →
      encodeLoop cap b (digits 58 v) = (digits 58 (foldBytes v b), true)) ∧
    (cap < (digits 58 (foldBytes v b)).length → (encodeLoop cap b (digits 58 v)).2 = false) := by
  induction b generalizing v with
  | nil =>
    refine ⟨fun _ => rfl, fun h => ?_⟩
    have : foldBytes v [] = v := rfl
    rw [this] at h
    omega
  | cons x b ih =>
    have hs := step_spec (mul := 256) (base := 58) (by decide) (by decide) cap v x.toNat hl
    have e : foldBytes v (x :: b) = foldBytes (256 * v + x.toNat) b := rfl
    rw [e, encodeLoop]
    by_cases h : (digits 58 (256 * v + x.toNat)).length ≤ cap
    · rw [hs.1 h]
      exact ih _ h
    · have hf := hs.2 (by omega)
      have hm := digits_len_mono (base := 58) (foldBytes_ge (256 * v + x.toNat) b)
      refine ⟨fun h' => absurd h' (by omega), fun _ => ?_⟩
      rcases hst : step 256 58 cap (digits 58 v) x.toNat with ⟨ds', ok⟩
      rw [hst] at hf
      simp only at hf
      subst hf
      rfl

theorem pushZeros_spec (cap k : Nat) (ds : List Nat) (hl : ds.length ≤ cap) :
    (ds.length + k ≤ cap → pushZeros cap k ds = (ds ++ List.replicate k 0, true)) ∧
    (cap < ds.length + k → (pushZeros cap k ds).2 = false) := by
  induction k generalizing ds with
  | zero => simp [pushZeros]; omega
  | succ k ih =>
    rw [pushZeros]
    by_cases h : ds.length = cap
    · rw [if_pos h]
      exact ⟨fun h' => by omega, fun _ => rfl⟩
    · rw [if_neg h]
      have := ih (ds ++ [0]) (by simp; omega)
      simp only [List.length_append, List.length_cons, List.length_nil, List.append_assoc, List.singleton_append] at this
      rw [List.replicate_succ]
      exact ⟨fun h' => this.1 (by omega), fun h' => this.2 (by omega)⟩

/-- Number of leading zero bytes. -/
def zerosB (b : Bytes) : Nat := (b.takeWhile (· = 0)).length
/-- Number of leading `1` characters. -/
def zerosS (s : Str) : Nat := (s.takeWhile (· = '1')).length

/-- The Base58 text of a byte string. -/
def text (b : Bytes) : Str :=
  ((digits 58 (foldBytes 0 b) ++ List.replicate (zerosB b) 0).map (fun d => alphabet.getD d '1')).reverse

theorem encodeInto_spec (cap : Nat) (b : Bytes) :
    ((text b).length ≤ cap → encodeInto cap b = .ok (text b)) ∧
    (cap < (text b).length → encodeInto cap b = .err .bufferTooSmall) := by
  have hlen : (text b).length = (digits 58 (foldBytes 0 b)).length + zerosB b := by simp [text, Nat.add_comm]
  have h0 : (digits 58 0).length ≤ cap := by simp
  have hs := encodeLoop_spec cap b 0 h0
  rw [Nat.digits_zero] at hs
  rw [hlen]
  unfold encodeInto
  by_cases h : (digits 58 (foldBytes 0 b)).length ≤ cap
  · rw [hs.1 h]
    have hz := pushZeros_spec cap (zerosB b) _ h
    constructor
    · intro h'
      have := hz.1 h'
      unfold zerosB at this
      simp only [this]
      rfl
    · intro h'
      have hf := hz.2 h'
      unfold zerosB at hf
      rcases hst : pushZeros cap (b.takeWhile (· = 0)).length (digits 58 (foldBytes 0 b)) with ⟨ds', ok⟩
      rw [hst] at hf
      simp only at hf
      subst hf
      simp only [hst]
  · refine ⟨fun h' => absurd h' (by omega), fun _ => ?_⟩
    have hf := hs.2 (by omega)
    rcases hst : encodeLoop cap b [] with ⟨ds', ok⟩
    rw [hst] at hf
    simp only at hf
    subst hf
    rfl

/-- The number reached after reading more characters. -/
def foldText (v : Nat) (s : Str) : Nat := s.foldl (fun v c => 58 * v + alphabet.idxOf c) v

theorem foldText_ge (v : Nat) (s : Str) : v ≤ foldText v s := by
  induction s generalizing v with
  | nil => exact le_refl _
  | cons x b ih =>
    have h := ih (58 * v + alphabet.idxOf x)
    have h2 : foldText v (x :: b) = foldText (58 * v + alphabet.idxOf x) b := rfl
    omega

theorem charVal_some {c : Char} (h : c ∈ alphabet) : charVal c = some (alphabet.idxOf c) := by
  unfold charVal
  have : alphabet.all (fun c => decide (alphabet.idxOf? c = some (alphabet.idxOf c))) = true := by decide +kernel
  rw [List.all_eq_true] at this
  exact of_decide_eq_true (this c h)

theorem charVal_none {c : Char} (h : c ∉ alphabet) : charVal c = none := by
  unfold charVal
  exact List.idxOf?_eq_none_iff.mpr h

theorem alphabet_ascii : ∀ c ∈ alphabet, ¬ c.toNat > 127 := by decide +kernel

theorem decodeLoop_spec (cap : Nat) (s : Str) (v : Nat) (hl : (digits 256 v).length ≤ cap) :
    ((∀ c ∈ s, c ∈ alphabet) → (digits 256 (foldText v s)).length ≤ cap →
      decodeLoop cap s (digits 256 v) = (digits 256 (foldText v s), none)) ∧
    (¬ ((∀ c ∈ s, c ∈ alphabet) ∧ (digits 256 (foldText v s)).length ≤ cap) →
      (decodeLoop cap s (digits 256 v)).2 ≠ none) := by
  induction s generalizing v with
  | nil => exact ⟨fun _ _ => rfl, fun h => absurd ⟨by simp, hl⟩ h⟩
  | cons x s ih =>
    have e : foldText v (x :: s) = foldText (58 * v + alphabet.idxOf x) s := rfl
    rw [e, decodeLoop]
    by_cases hx : x ∈ alphabet
    · rw [if_neg (alphabet_ascii x hx), charVal_some hx]
      have hs := step_spec (mul := 58) (base := 256) (by decide) (by decide) cap v (alphabet.idxOf x) hl
      by_cases h : (digits 256 (58 * v + alphabet.idxOf x)).length ≤ cap
      · simp only [hs.1 h]
        have := ih _ h
        refine ⟨fun ha hb => this.1 (fun c hc => ha c (List.mem_cons_of_mem _ hc)) hb, fun hn => this.2 (fun hh => hn ?_)⟩
        refine ⟨fun c hc => ?_, hh.2⟩
        rcases List.mem_cons.mp hc with rfl | h'
        · exact hx
        · exact hh.1 c h'
      · have hf := hs.2 (by omega)
        have hm := digits_len_mono (base := 256) (foldText_ge (58 * v + alphabet.idxOf x) s)
        refine ⟨fun _ h' => absurd h' (by omega), fun _ => ?_⟩
        rcases hst : step 58 256 cap (digits 256 v) (alphabet.idxOf x) with ⟨ds', ok⟩
        rw [hst] at hf
        simp only at hf
        subst hf
        simp [hst]
    · refine ⟨fun h => absurd (h x (by simp)) hx, fun _ => ?_⟩
      by_cases ha : x.toNat > 127
      · rw [if_pos ha]; simp
      · rw [if_neg ha, charVal_none hx]; simp

/-- The bytes denoted by a Base58 text. -/
def bytes (s : Str) : Bytes := ((digits 256 (foldText 0 s) ++ List.replicate (zerosS s) 0).map UInt8.ofNat).reverse

theorem decodeInto_spec (cap : Nat) (s : Str) :
    ((∀ c ∈ s, c ∈ alphabet) → (bytes s).length ≤ cap →
      decodeInto cap s = (bytes s ++ List.replicate (cap - (bytes s).length) 0, .ok (bytes s).length)) ∧
    (¬ ((∀ c ∈ s, c ∈ alphabet) ∧ (bytes s).length ≤ cap) → ∃ buf e, decodeInto cap s = (buf, .err e)) := by
  have hlen : (bytes s).length = (digits 256 (foldText 0 s)).length + zerosS s := by simp [bytes, Nat.add_comm]
  have hs := decodeLoop_spec cap s 0 (by simp)
  rw [Nat.digits_zero] at hs
  unfold decodeInto
  by_cases h : (∀ c ∈ s, c ∈ alphabet) ∧ (digits 256 (foldText 0 s)).length ≤ cap
  · rw [hs.1 h.1 h.2]
    have hz := pushZeros_spec cap (zerosS s) _ h.2
    constructor
    · intro _ h'
      have := hz.1 (by omega)
      unfold zerosS at this
      simp only [this, buffer, bytes, zerosS]
      simp [Nat.add_comm]
    · intro h'
      have hf := hz.2 (by
        by_contra hc
        exact h' ⟨h.1, by omega⟩)
      unfold zerosS at hf
      rcases hst : pushZeros cap (s.takeWhile (· = '1')).length (digits 256 (foldText 0 s)) with ⟨ds', ok⟩
      rw [hst] at hf
      simp only at hf
      subst hf
      simp only [hst]
      exact ⟨_, _, rfl⟩
  · refine ⟨fun ha hb => absurd ⟨ha, by omega⟩ h, fun _ => ?_⟩
    have hf := hs.2 h
    rcases hst : decodeLoop cap s [] with ⟨ds', ok⟩
    rw [hst] at hf
    cases ok with
    | none => exact absurd rfl hf
    | some e => exact ⟨_, _, rfl⟩

/-- Number of leading zeros of a digit list. -/
def zerosD (l : List Nat) : Nat := (l.takeWhile (· = 0)).length

theorem takeWhile_zero (l : List Nat) : l.takeWhile (· = 0) = List.replicate (zerosD l) 0 := by
  rw [List.eq_replicate_iff]
  exact ⟨rfl, fun b hb => by simpa using List.mem_takeWhile_imp hb⟩

theorem ofDigits_replicate_zero (base : Nat) (l : List Nat) (k : Nat) :
    ofDigits base (l ++ List.replicate k 0) = ofDigits base l := by
  rw [Nat.ofDigits_append]
  have : ofDigits base (List.replicate k 0) = 0 := by
    induction k with
    | zero => rfl
    | succ k ih => rw [List.replicate_succ, Nat.ofDigits_cons, ih]; simp
  rw [this]; simp

/-- A digit list is its leading zeros followed by the digits of its value. -/
theorem digits_decomp {base : Nat} (hb : 1 < base) (l : List Nat) (hl : ∀ x ∈ l, x < base) :
    l.reverse = digits base (ofDigits base l.reverse) ++ List.replicate (zerosD l) 0 := by
  have hs : l = l.takeWhile (· = 0) ++ l.dropWhile (· = 0) := (List.takeWhile_append_dropWhile).symm
  have hr : l.reverse = (l.dropWhile (· = 0)).reverse ++ List.replicate (zerosD l) 0 := by
    conv_lhs => rw [hs, List.reverse_append, takeWhile_zero, List.reverse_replicate]
  have hv : ofDigits base l.reverse = ofDigits base (l.dropWhile (· = 0)).reverse := by
    rw [hr, ofDigits_replicate_zero]
  have hd : digits base (ofDigits base (l.dropWhile (· = 0)).reverse) = (l.dropWhile (· = 0)).reverse := by
    apply Nat.digits_ofDigits base hb
    · intro x hx
      apply hl
      rw [List.mem_reverse] at hx
      exact (List.dropWhile_suffix _).subset hx
    · intro hne
      rw [List.getLast_reverse]
      have hne' : l.dropWhile (· = 0) ≠ [] := fun h => hne (by rw [h]; rfl)
      have := List.head_dropWhile_not (fun x => decide (x = 0)) hne'
      simpa using this
  rw [hv, hd]
  exact hr

theorem zerosD_digits (base v z : Nat) :
    zerosD (digits base v ++ List.replicate z 0).reverse = z := by
  unfold zerosD
  rw [List.reverse_append, List.reverse_replicate, List.takeWhile_append_of_pos (by simp)]
  have : (digits base v).reverse.takeWhile (· = 0) = [] := by
    by_cases hv : v = 0
    · subst hv; simp
    · have hne : digits base v ≠ [] := Nat.digits_ne_nil_iff_ne_zero.mpr hv
      have h := Nat.getLast_digit_ne_zero base hv
      obtain ⟨l, a, hla⟩ : ∃ l a, digits base v = l ++ [a] :=
        ⟨_, _, (List.dropLast_append_getLast hne).symm⟩
      have ha : a ≠ 0 := by
        have : (digits base v).getLast hne = a := by simp [hla]
        rwa [this] at h
      rw [hla]
      simp [ha]
  rw [this]; simp

theorem foldText_eq (s : Str) : foldText 0 s = ofDigits 58 (s.map (alphabet.idxOf ·)).reverse := by
  induction s using List.reverseRecOn with
  | nil => rfl
  | append_singleton s c ih =>
    simp only [foldText, List.foldl_append, List.foldl_cons, List.foldl_nil, List.map_append, List.map_cons,
      List.map_nil, List.reverse_append, List.reverse_cons, List.reverse_nil, List.nil_append, List.singleton_append,
      Nat.ofDigits_cons]
    rw [← ih]
    unfold foldText
    simp [Nat.add_comm]

theorem foldBytes_eq (b : Bytes) : foldBytes 0 b = ofDigits 256 (b.map UInt8.toNat).reverse := by
  induction b using List.reverseRecOn with
  | nil => rfl
  | append_singleton s c ih =>
    simp only [foldBytes, List.foldl_append, List.foldl_cons, List.foldl_nil, List.map_append, List.map_cons,
      List.map_nil, List.reverse_append, List.reverse_cons, List.reverse_nil, List.nil_append, List.singleton_append,
      Nat.ofDigits_cons]
    rw [← ih]
    unfold foldBytes
    simp [Nat.add_comm]

theorem idxOf_zero (c : Char) : alphabet.idxOf c = 0 ↔ c = '1' := by
  constructor
  · intro h
    unfold alphabet at h
    rw [show "123456789ABCDEFGHJKLMNPQRSTUVWXYZabcdefghijkmnopqrstuvwxyz".toList = '1' :: alphabet.tail from by decide,
      List.idxOf_cons] at h
    by_contra hc
    have : ('1' == c) = false := by simpa using fun h => hc h.symm
    rw [this] at h
    simp at h
  · rintro rfl; decide

theorem zerosS_eq (s : Str) : zerosS s = zerosD (s.map (alphabet.idxOf ·)) := by
  unfold zerosS zerosD
  rw [List.takeWhile_map, List.length_map]
  congr 2
  funext c
  simp [Function.comp, idxOf_zero]

theorem zerosB_eq (b : Bytes) : zerosB b = zerosD (b.map UInt8.toNat) := by
  unfold zerosB zerosD
  rw [List.takeWhile_map, List.length_map]
  congr 2
  funext c
  simp only [Function.comp, decide_eq_decide]
  exact ⟨fun h => by rw [h]; rfl, fun h => UInt8.toNat_inj.mp h⟩

theorem getD_idxOf {c : Char} (h : c ∈ alphabet) : alphabet.getD (alphabet.idxOf c) '1' = c := by
  have : ∀ c ∈ alphabet, alphabet.getD (alphabet.idxOf c) '1' = c := by decide +kernel
  exact this c h

theorem idxOf_getD {d : Nat} (h : d < 58) : alphabet.idxOf (alphabet.getD d '1') = d := by
  have : ∀ d < 58, alphabet.idxOf (alphabet.getD d '1') = d := by decide +kernel
  exact this d h

theorem getD_mem {d : Nat} (h : d < 58) : alphabet.getD d '1' ∈ alphabet := by
  have : ∀ d < 58, alphabet.getD d '1' ∈ alphabet := by decide +kernel
  exact this d h

theorem idxOf_lt {c : Char} (h : c ∈ alphabet) : alphabet.idxOf c < 58 := by
  have : alphabet.length = 58 := by decide
  rw [← this]
  exact List.idxOf_lt_length_iff.mpr h

theorem alphabet_eq : alphabet = Spec.digits58 := by decide

theorem text_of {s : Str} {b : Bytes} (h : Spec.Base58 s b) : s = text b := by
  have hc : ∀ c ∈ s, c ∈ alphabet := by rw [alphabet_eq]; exact h.chars
  have hv : foldText 0 s = foldBytes 0 b := by
    have := h.value
    unfold Spec.textVal Spec.bytesVal at this
    rw [← alphabet_eq] at this
    exact this
  have hz : zerosS s = zerosB b := h.zeros
  have hd := digits_decomp (base := 58) (by decide) (s.map (alphabet.idxOf ·)) (by
    intro x hx
    obtain ⟨c, hc', rfl⟩ := List.mem_map.mp hx
    exact idxOf_lt (hc c hc'))
  rw [← foldText_eq, ← zerosS_eq, hv, hz] at hd
  unfold text
  rw [← hd, List.map_reverse, List.reverse_reverse, List.map_map]
  conv_lhs => rw [← List.map_id s]
  apply List.map_congr_left
  intro c hc'
  exact (getD_idxOf (hc c hc')).symm

theorem bytes_of {s : Str} {b : Bytes} (h : Spec.Base58 s b) : b = bytes s := by
  have hv : foldText 0 s = foldBytes 0 b := by
    have := h.value
    unfold Spec.textVal Spec.bytesVal at this
    rw [← alphabet_eq] at this
    exact this
  have hz : zerosS s = zerosB b := h.zeros
  have hd := digits_decomp (base := 256) (by decide) (b.map UInt8.toNat) (by
    intro x hx
    obtain ⟨c, hc', rfl⟩ := List.mem_map.mp hx
    exact c.toNat_lt)
  rw [← foldBytes_eq, ← zerosB_eq, ← hv, ← hz] at hd
  unfold bytes
  rw [← hd, List.map_reverse, List.reverse_reverse, List.map_map]
  conv_lhs => rw [← List.map_id b]
  apply List.map_congr_left
  intro c _
  simp

theorem text_spec (b : Bytes) : Spec.Base58 (text b) b := by
  have hm : (text b).map (alphabet.idxOf ·) = (digits 58 (foldBytes 0 b) ++ List.replicate (zerosB b) 0).reverse := by
    unfold text
    rw [List.map_reverse, List.map_map]
    congr 1
    conv_rhs => rw [← List.map_id (_ ++ _)]
    apply List.map_congr_left
    intro d hd
    apply idxOf_getD
    rw [List.mem_append] at hd
    rcases hd with h | h
    · exact Nat.digits_lt_base (by decide) h
    · rw [(List.mem_replicate.mp h).2]; decide
  refine ⟨?_, ?_, ?_⟩
  · intro c hc
    rw [← alphabet_eq]
    unfold text at hc
    rw [List.mem_reverse, List.mem_map] at hc
    obtain ⟨d, hd, rfl⟩ := hc
    apply getD_mem
    rw [List.mem_append] at hd
    rcases hd with h | h
    · exact Nat.digits_lt_base (by decide) h
    · rw [(List.mem_replicate.mp h).2]; decide
  · have : foldText 0 (text b) = foldBytes 0 b := by
      rw [foldText_eq, hm, List.reverse_reverse, ofDigits_replicate_zero, Nat.ofDigits_digits]
    unfold Spec.textVal Spec.bytesVal
    rw [← alphabet_eq]
    exact this
  · have : zerosS (text b) = zerosB b := by rw [zerosS_eq, hm, zerosD_digits]
    exact this

theorem bytes_spec (s : Str) (hs : ∀ c ∈ s, c ∈ alphabet) : Spec.Base58 s (bytes s) := by
  have hm : (bytes s).map UInt8.toNat = (digits 256 (foldText 0 s) ++ List.replicate (zerosS s) 0).reverse := by
    unfold bytes
    rw [List.map_reverse, List.map_map]
    congr 1
    conv_rhs => rw [← List.map_id (_ ++ _)]
    apply List.map_congr_left
    intro d hd
    have : d < 256 := by
      rw [List.mem_append] at hd
      rcases hd with h | h
      · exact Nat.digits_lt_base (by decide) h
      · rw [(List.mem_replicate.mp h).2]; decide
    simp [Nat.mod_eq_of_lt this]
  refine ⟨by rw [← alphabet_eq]; exact hs, ?_, ?_⟩
  · have : foldBytes 0 (bytes s) = foldText 0 s := by
      rw [foldBytes_eq, hm, List.reverse_reverse, ofDigits_replicate_zero, Nat.ofDigits_digits]
    unfold Spec.textVal Spec.bytesVal
    rw [← alphabet_eq]
    exact this.symm
  · have : zerosB (bytes s) = zerosS s := by rw [zerosB_eq, hm, zerosD_digits]
    exact this.symm

/-- Base58 texts and byte strings correspond one to one. -/
theorem base58_text_unique {s s' : Str} {b : Bytes} (h : Spec.Base58 s b) (h' : Spec.Base58 s' b) : s = s' :=
  (text_of h).trans (text_of h').symm

theorem base58_bytes_unique {s : Str} {b b' : Bytes} (h : Spec.Base58 s b) (h' : Spec.Base58 s b') : b = b' :=
  (bytes_of h).trans (bytes_of h').symm

/-- `encodeInto` in terms of the specification. -/
theorem encodeInto_ok_iff (cap : Nat) (b : Bytes) (s : Str) :
    encodeInto cap b = .ok s ↔ Spec.Base58 s b ∧ s.length ≤ cap := by
  have h := encodeInto_spec cap b
  constructor
  · intro he
    by_cases hl : (text b).length ≤ cap
    · rw [h.1 hl] at he
      cases he
      exact ⟨text_spec b, hl⟩
    · rw [h.2 (by omega)] at he
      cases he
  · rintro ⟨hs, hl⟩
    rw [text_of hs] at hl ⊢
    exact h.1 hl

/-- `decodeInto` in terms of the specification. -/
theorem decodeInto_ok {cap : Nat} {s : Str} {b : Bytes} (h : Spec.Base58 s b) (hl : b.length ≤ cap) :
    decodeInto cap s = (b ++ List.replicate (cap - b.length) 0, .ok b.length) := by
  rw [bytes_of h] at hl ⊢
  exact (decodeInto_spec cap s).1 (by rw [alphabet_eq]; exact h.chars) hl

theorem decodeInto_cases (cap : Nat) (s : Str) :
    (∃ b, Spec.Base58 s b ∧ b.length ≤ cap ∧ decodeInto cap s = (b ++ List.replicate (cap - b.length) 0, .ok b.length)) ∨
    ((¬ ∃ b, Spec.Base58 s b ∧ b.length ≤ cap) ∧ ∃ buf e, decodeInto cap s = (buf, .err e)) := by
  by_cases h : (∀ c ∈ s, c ∈ alphabet) ∧ (bytes s).length ≤ cap
  · exact Or.inl ⟨bytes s, bytes_spec s h.1, h.2, (decodeInto_spec cap s).1 h.1 h.2⟩
  · refine Or.inr ⟨?_, (decodeInto_spec cap s).2 h⟩
    rintro ⟨b, hb, hl⟩
    apply h
    rw [bytes_of hb] at hl
    exact ⟨by rw [alphabet_eq]; exact hb.chars, hl⟩

/-- SHA-256 as a function on byte strings. -/
def sha256 (H : Hashes) : Bytes → Bytes := fun b => (H.sha256 b).1

theorem checksum_eq (H : Hashes) (b : Bytes) : checksum H b = (sha256 H (sha256 H b)).take 4 := rfl

theorem checksum_length (H : Hashes) (b : Bytes) : (checksum H b).length = 4 := by
  unfold checksum
  rw [List.length_take, (H.sha256 _).2]
  rfl

/-- `decodeCheck` in terms of the specification. -/
theorem decodeCheck_cases (H : Hashes) (cap : Nat) (s : Str) :
    (∃ b, Spec.Base58Check (sha256 H) s b ∧ b.length + 4 ≤ cap ∧
      decodeCheck H cap s = (b ++ checksum H b ++ List.replicate (cap - (b.length + 4)) 0, .ok b.length)) ∨
    ((¬ ∃ b, Spec.Base58Check (sha256 H) s b ∧ b.length + 4 ≤ cap) ∧ ∃ buf e, decodeCheck H cap s = (buf, .err e)) := by
  rcases decodeInto_cases cap s with ⟨b, hb, hl, hd⟩ | ⟨hn, buf, e, hd⟩
  · have hbuf : ∀ n ≤ b.length, (b ++ List.replicate (cap - b.length) (0 : UInt8)).take n = b.take n := by
      intro n hn
      rw [List.take_append_of_le_length hn]
    unfold decodeCheck
    simp only [hd]
    by_cases h4 : b.length < 4
    · refine Or.inr ⟨?_, by rw [if_pos h4]; exact ⟨_, _, rfl⟩⟩
      rintro ⟨b', hb', hl'⟩
      have := base58_bytes_unique hb hb'
      rw [this, List.length_append, ← checksum_eq, checksum_length] at h4
      omega
    · rw [if_neg h4, hbuf _ (by omega), hbuf _ (le_refl _), List.take_length]
      by_cases hc : checksum H (b.take (b.length - 4)) = b.drop (b.length - 4)
      · have hbe : b = b.take (b.length - 4) ++ checksum H (b.take (b.length - 4)) := by
          rw [hc, List.take_append_drop]
        refine Or.inl ⟨b.take (b.length - 4), ?_, ?_, ?_⟩
        · unfold Spec.Base58Check
          rw [← checksum_eq, ← hbe]
          exact hb
        · rw [List.length_take]; omega
        · rw [if_neg (by simp [hc]), ← hbe]
          have : min (b.length - 4) b.length = b.length - 4 := by omega
          simp only [List.length_take, this]
          rw [show b.length - 4 + 4 = b.length by omega]
      · refine Or.inr ⟨?_, by rw [if_pos (by simpa using hc)]; exact ⟨_, _, rfl⟩⟩
        rintro ⟨b', hb', hl'⟩
        have he := base58_bytes_unique hb hb'
        rw [← checksum_eq] at he
        have hlen : b.length - 4 = b'.length := by
          rw [he, List.length_append, checksum_length]; omega
        apply hc
        rw [hlen]
        rw [he, List.take_left', List.drop_left'] <;> rfl
  · refine Or.inr ⟨?_, ?_⟩
    · rintro ⟨b', hb', hl'⟩
      exact hn ⟨_, hb', by rw [List.length_append, ← checksum_eq, checksum_length]; exact hl'⟩
    · unfold decodeCheck
      simp only [hd]
      exact ⟨_, _, rfl⟩

theorem foldBytes_beNat (b : Bytes) : foldBytes 0 b = beNat b := by
  unfold foldBytes beNat
  congr 1
  funext v x
  rw [Nat.mul_comm]

theorem beNat_replicate_zero (z : Nat) (b : Bytes) : beNat (List.replicate z 0 ++ b) = beNat b := by
  rw [beNat_append]
  have : beNat (List.replicate z 0) = 0 := by
    induction z with
    | zero => rfl
    | succ z ih => rw [List.replicate_succ, beNat_cons, ih]; simp
  rw [this]; simp

/-- A text for 82 bytes has at most 112 characters. -/
theorem text_length_le (b : Bytes) (hb : b.length = 82) : (text b).length ≤ 112 := by
  have hlen : (text b).length = (digits 58 (foldBytes 0 b)).length + zerosB b := by simp [text, Nat.add_comm]
  have hs : b = List.replicate (zerosB b) 0 ++ b.dropWhile (· = 0) := by
    conv_lhs => rw [← List.takeWhile_append_dropWhile (p := fun x : UInt8 => decide (x = 0)) (l := b)]
    congr 1
    rw [List.eq_replicate_iff]
    exact ⟨rfl, fun b hb => by simpa using List.mem_takeWhile_imp hb⟩
  have hl : zerosB b + (b.dropWhile (· = 0)).length = 82 := by
    have := congrArg List.length hs
    rw [List.length_append, List.length_replicate, hb] at this
    exact this.symm
  have hv : foldBytes 0 b < 256 ^ (82 - zerosB b) := by
    rw [foldBytes_beNat, hs, beNat_replicate_zero]
    have := beNat_lt (b.dropWhile (· = 0))
    rw [show (b.dropWhile (· = 0)).length = 82 - zerosB b by omega] at this
    rw [← hs]
    exact this
  have hz : ∀ z < 83, 256 ^ (82 - z) ≤ 58 ^ (112 - z) := by decide +kernel
  have h58 : foldBytes 0 b < 58 ^ (112 - zerosB b) := lt_of_lt_of_le hv (hz _ (by omega))
  have := (Nat.digits_length_le_iff (by decide : 1 < 58) (foldBytes 0 b)).mpr h58
  omega

/-- The first four characters when the text has 111 characters and the first byte is not zero. -/
theorem text_first (b : Bytes) (hz : zerosB b = 0) (hlo : 58 ^ 110 ≤ beNat b) (hhi : beNat b < 58 ^ 111) :
    (text b).length = 111 ∧ (text b).take 4 = ((digits 58 (beNat b / 58 ^ 107)).map (fun d => alphabet.getD d '1')).reverse := by
  have hlen : (digits 58 (beNat b)).length = 111 := by
    have h1 := (Nat.digits_length_le_iff (by decide : 1 < 58) (beNat b)).mpr hhi
    have h2 := (Nat.lt_digits_length_iff (by decide : 1 < 58) (beNat b)).mpr hlo
    omega
  have ht : text b = ((digits 58 (beNat b)).map (fun d => alphabet.getD d '1')).reverse := by
    unfold text
    rw [hz, foldBytes_beNat]
    simp
  have hdrop : digits 58 (beNat b / 58 ^ 107) = (digits 58 (beNat b)).drop 107 := by
    rw [Nat.self_div_pow_eq_ofDigits_drop 107 (beNat b) (by decide : 2 ≤ 58)]
    apply Nat.digits_ofDigits 58 (by decide)
    · intro x hx
      exact Nat.digits_lt_base (by decide) (List.mem_of_mem_drop hx)
    · intro hne
      rw [List.getLast_drop]
      have hv : beNat b ≠ 0 := by
        intro h; rw [h] at hlen; simp at hlen
      exact Nat.getLast_digit_ne_zero 58 hv
  refine ⟨by rw [ht]; simp [hlen], ?_⟩
  rw [hdrop, ht, List.take_reverse]
  congr 1
  rw [List.length_map, hlen, List.map_drop]

end Kms.Base58
