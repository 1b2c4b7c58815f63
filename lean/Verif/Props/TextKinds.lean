import Verif.Spec.TextKinds
import Verif.Props.AllLanguages
import Verif.Props.KeyText
import Verif.Props.Path
/-
Property C133: a text is accepted as one kind of thing only.
-/
namespace Kms.Props
open Kms.Bip39 Kms.Bip32 Kms.Spec
open Kms.Bip39.All (Lang)
open Kms.Spec.All (ofLanguage ofMnemonic)

/-! ### what the texts of each kind look like -/

theorem spells_white {s : Str} {ws : List Str} (h : Spells s ws) (hn : 2 ≤ ws.length) : ∃ c ∈ s, isWhite c = true := by
  cases h with
  | blank lead h => simp at hn
  | last lead w trail => simp at hn
  | cons lead w c rest ws h1 h2 h3 h4 h5 => exact ⟨c, by simp, h4⟩

theorem spaced_white {ws : List Str} (hn : 2 ≤ ws.length) : ∃ c ∈ spaced ws, isWhite c = true := by
  match ws, hn with
  | w :: v :: ws, _ => exact ⟨' ', by simp [spaced], by decide⟩

theorem sizes_ge {k : Nat} (h : k ∈ sizes) : 2 ≤ k := by
  have : ∀ k ∈ sizes, 2 ≤ k := by decide
  exact this k h

theorem phrase_white {H : Hashes} {s : Str} (h : AcceptedAs H s .phrase) : ∃ c ∈ s, isWhite c = true := by
  obtain ⟨l, ⟨m, h⟩ | h⟩ := h
  · obtain ⟨ws, idx, ⟨raw, h1, h2⟩, h3, h4, _⟩ := ((C94_all_phrases H l).2.1 s m).1 h
    refine spells_white h1 ?_
    have e : ws.length = idx.length := by simpa using congrArg List.length h3
    rw [h2.length_eq, e]
    exact sizes_ge h4.1
  · obtain ⟨_, _, ⟨ws, h1, _, h2⟩, _⟩ := (C94_all_phrases H l).2.2.2 s
    obtain ⟨idx, h3, h4, _⟩ := h2.1 h
    have e : ws.length = idx.length := by simpa using congrArg List.length h3
    rw [← h1.2.1]
    exact spaced_white (e ▸ sizes_ge h4)

theorem textVal_lt {s : Str} (h : ∀ c ∈ s, c ∈ digits58) (v : Nat) :
    s.foldl (fun v c => 58 * v + digits58.idxOf c) v < 58 ^ s.length * (v + 1) := by
  induction s generalizing v with
  | nil => simp
  | cons c s ih =>
    rw [List.foldl_cons, List.length_cons]
    have h1 : digits58.idxOf c < 58 := List.idxOf_lt_length_of_mem (h c (by simp))
    refine (ih (fun c hc => h c (by simp [hc])) _).trans_le ?_
    rw [pow_succ, mul_assoc]
    exact Nat.mul_le_mul_left _ (by omega)

theorem bytesVal_ge (b : Bytes) (v : Nat) : 256 ^ b.length * v ≤ b.foldl (fun v x => 256 * v + x.toNat) v := by
  induction b generalizing v with
  | nil => simp
  | cons x b ih =>
    rw [List.foldl_cons, List.length_cons]
    refine le_trans ?_ (ih _)
    rw [pow_succ, mul_assoc]
    exact Nat.mul_le_mul_left _ (by omega)

/-- A key text starts with two letters, is longer than any language code and has no white space. -/
theorem key_shape {H : Hashes} {s : Str} (h : AcceptedAs H s .extendedKey) :
    110 < s.length ∧ (∀ c ∈ s.take 4, Letter c) ∧ ∀ c ∈ s, c ∈ digits58 := by
  have h' : ∃ k, ExtendedKey.fromStr H s = .ok k := by
    rcases h with h | ⟨k, h⟩ | ⟨k, h⟩
    · exact h
    · unfold XPrv.fromStr at h
      rw [Res.bind_eq_ok] at h
      exact ⟨_, h.choose_spec.1⟩
    · unfold XPub.fromStr at h
      rw [Res.bind_eq_ok] at h
      exact ⟨_, h.choose_spec.1⟩
  obtain ⟨⟨b, hb, hs⟩, hl⟩ := (C43_from_str_exact H s).1.1 h'
  refine ⟨?_, hl, hs.chars⟩
  have hv := textVal_lt hs.chars 0
  rw [Nat.zero_add, Nat.mul_one] at hv
  have hval : s.foldl (fun v c => 58 * v + digits58.idxOf c) 0 = _ := hs.value
  rw [hval] at hv
  have hz : (s.takeWhile (· = '1')).length = 0 := by
    match s, hl with
    | [], _ => rfl
    | c :: s, hl =>
      have : c ≠ '1' := by
        rintro rfl
        exact absurd (hl '1' (by simp)) (by unfold Letter; decide)
      simp [this]
  have hz2 := hs.zeros
  rw [hz] at hz2
  match b, hb with
  | x :: b, hb =>
    have hx : x ≠ 0 := by
      rintro rfl
      simp at hz2
    have hx' : 1 ≤ x.toNat := by
      rcases Nat.eq_zero_or_pos x.toNat with h0 | h0
      · exact absurd (UInt8.toNat_inj.1 h0) hx
      · exact h0
    have hlen : (b ++ ((sha256 H) ((sha256 H) (x :: b))).take 4).length = 81 := by
      have : ((sha256 H) ((sha256 H) (x :: b))).length = 32 := (H.sha256 _).2
      simp only [List.length_cons] at hb
      rw [List.length_append, List.length_take, this]
      omega
    have h1 : 256 ^ 81 ≤ bytesVal (x :: b ++ ((sha256 H) ((sha256 H) (x :: b))).take 4) := by
      have := bytesVal_ge (b ++ ((sha256 H) ((sha256 H) (x :: b))).take 4) (256 * 0 + x.toNat)
      rw [hlen] at this
      refine le_trans ?_ this
      exact Nat.le_mul_of_pos_right _ (by omega)
    by_contra hle
    have h2 : 58 ^ s.length ≤ 58 ^ 110 := Nat.pow_le_pow_right (by decide) (by omega)
    have h3 : 58 ^ 110 < 256 ^ 81 := by decide
    exact absurd (h1.trans_lt (hv.trans_le h2)) (Nat.not_lt.2 h3.le)

theorem decimal_digit {s : Str} {v : Nat} (h : Decimal s v) : s ≠ [] ∧ ∀ c ∈ s, 48 ≤ c.toNat ∧ c.toNat ≤ 57 := by
  have hd : ∀ c d, IsDigit c d → 48 ≤ c.toNat ∧ c.toNat ≤ 57 := by
    rintro c d ⟨h1, h2⟩
    have : '0'.toNat = 48 := by decide
    omega
  induction h with
  | one c d h => exact ⟨by simp, fun x hx => by simp at hx; exact hx ▸ hd c d h⟩
  | snoc s v c d _ h ih =>
    refine ⟨by simp, fun x hx => ?_⟩
    rw [List.mem_append] at hx
    rcases hx with hx | hx
    · exact ih.2 x hx
    · simp at hx
      exact hx ▸ hd c d h

/-- The characters of child numbers. -/
theorem child_chars {s : Str} {i : Nat} {b : Bool} (h : ChildText s i b) :
    (∃ c t, s = c :: t ∧ (c = '+' ∨ 48 ≤ c.toNat ∧ c.toNat ≤ 57)) ∧
    ∀ c ∈ s, c = '+' ∨ c = '\'' ∨ 48 ≤ c.toNat ∧ c.toNat ≤ 57 := by
  obtain ⟨sign, digits, hsg, hd, _, rfl⟩ := h
  obtain ⟨h1, h2⟩ := decimal_digit hd
  constructor
  · rcases hsg with rfl | rfl
    · match digits, h1 with
      | c :: t, _ => exact ⟨c, _, rfl, .inr (h2 c (by simp))⟩
    · exact ⟨'+', _, rfl, .inl rfl⟩
  · intro c hc
    rw [List.mem_append, List.mem_append] at hc
    rcases hc with (hc | hc) | hc
    · rcases hsg with rfl | rfl
      · simp at hc
      · exact .inl (by simpa using hc)
    · exact .inr (.inr (h2 c hc))
    · cases b <;> simp at hc
      exact .inr (.inl hc)

theorem white_char {c : Char} (h : isWhite c = true) : c.toNat ≤ 32 ∨ 133 ≤ c.toNat := by
  have : ∀ k ∈ whiteSpace, k ≤ 32 ∨ 133 ≤ k := by decide
  exact this _ (by simpa [isWhite] using h)

theorem path_shape {s : Str} (h : ∃ p, DerivationPath.fromStr s = .ok p) :
    (s = ['m'] ∨ ∃ t, s = 'm' :: '/' :: t) ∧ ∀ c ∈ s, 33 ≤ c.toNat ∧ c.toNat ≤ 122 := by
  obtain ⟨p, h⟩ := h
  obtain ⟨segs, hs, hf⟩ := ((C28_path_grammar s).1 p).1 h
  subst hs
  constructor
  · cases segs with
    | nil => exact .inl rfl
    | cons t segs => exact .inr ⟨_, rfl⟩
  · intro c hc
    rw [List.mem_cons, List.mem_flatMap] at hc
    rcases hc with rfl | ⟨t, ht, hc⟩
    · decide
    · rcases List.mem_cons.1 hc with rfl | hc
      · decide
      · obtain ⟨i, hi, rfl⟩ := List.getElem_of_mem ht
        have hb := (List.forall₂_iff_get.1 hf).2 i hi (by rw [← hf.length_eq]; exact hi)
        rcases (child_chars hb).2 c hc with rfl | rfl | h
        · decide
        · decide
        · omega

/-- Language codes start with neither m nor a digit, have at most five characters and no white space. -/
theorem code_shape {s : Str} (h : ∃ F l, Lang.fromLanguageCode F s = some l) :
    s.length ≤ 5 ∧ (∃ c t, s = c :: t ∧ 65 ≤ c.toNat ∧ c ≠ 'm') ∧ ∀ c ∈ s, 33 ≤ c.toNat ∧ c.toNat ≤ 122 := by
  obtain ⟨F, l, h⟩ := h
  have h1 := (((C95_codes_and_detection F).1 s l).1 h).2
  have hlen := h1.length_eq
  have hr : ∀ c d : Char, SameLetter c d → 33 ≤ d.toNat ∧ d.toNat ≤ 122 → 33 ≤ c.toNat ∧ c.toNat ≤ 122 := by
    rintro c d (rfl | ⟨a, b, e⟩ | ⟨a, b, e⟩) h <;> omega
  have hall : ∀ l, (All.code l).length ≤ 5 ∧ (∀ d ∈ All.code l, 33 ≤ d.toNat ∧ d.toNat ≤ 122) ∧
      ∃ d t, All.code l = d :: t ∧ 97 ≤ d.toNat ∧ d.toNat ≤ 122 ∧ d ≠ 'm' := by
    intro l
    cases l <;> exact ⟨by decide, by decide, _, _, rfl, by decide, by decide, by decide⟩
  obtain ⟨a1, a2, d, t, a3, a4, a5, a6⟩ := hall l
  refine ⟨by omega, ?_, ?_⟩
  · rw [a3] at h1
    cases h1 with
    | cons hcd ht =>
      refine ⟨_, _, rfl, ?_, ?_⟩
      · rcases hcd with rfl | ⟨a, b, e⟩ | ⟨a, b, e⟩ <;> omega
      · rintro rfl
        have : 'm'.toNat = 109 := by decide
        rcases hcd with e | ⟨a, b, e⟩ | ⟨a, b, e⟩
        · exact a6 e.symm
        · omega
        · omega
  · intro c hc
    obtain ⟨i, hi, rfl⟩ := List.getElem_of_mem hc
    have hg := (List.forall₂_iff_get.1 h1).2 i hi (by rw [← hlen]; exact hi)
    exact hr _ _ hg (a2 _ (List.getElem_mem _))

/-- **C133** No text is accepted as two kinds of thing: a phrase (in any language), an extended key, a child number, a derivation
path and a language code are never confused. -/
theorem C133_one_kind_of_text (H : Hashes) (s : Str) (a b : TextKind) (ha : AcceptedAs H s a) (hb : AcceptedAs H s b) : a = b := by
  have hletter : ∀ c, Letter c → 65 ≤ c.toNat ∧ c.toNat ≤ 122 := by
    intro c hc
    unfold Letter at hc
    simp only [Char.le_def, UInt32.le_iff_toNat_le] at hc
    have e1 : 'a'.val.toNat = 97 := by decide
    have e2 : 'z'.val.toNat = 122 := by decide
    have e3 : 'A'.val.toNat = 65 := by decide
    have e4 : 'Z'.val.toNat = 90 := by decide
    have : c.toNat = c.val.toNat := rfl
    omega
  -- only phrases have white space
  have hwhite : ∀ k, k ≠ TextKind.phrase → AcceptedAs H s k → ∀ c ∈ s, isWhite c = false := by
    intro k hk hs c hc
    by_contra hw
    have hw := white_char (Bool.eq_true_of_not_eq_false hw)
    cases k with
    | phrase => exact hk rfl
    | extendedKey =>
      have h1 : ∀ d ∈ digits58, 33 ≤ d.toNat ∧ d.toNat ≤ 122 := by decide
      have := h1 c ((key_shape hs).2.2 c hc)
      omega
    | childNumber =>
      obtain ⟨x, h⟩ := hs
      rcases (child_chars (((C26_child_number_grammar s).1 x).1 h)).2 c hc with rfl | rfl | h
      · exact absurd hw (by decide)
      · exact absurd hw (by decide)
      · omega
    | derivationPath =>
      have := (path_shape hs).2 c hc
      omega
    | languageCode =>
      have := (code_shape hs).2.2 c hc
      omega
  have hp : ∀ k, AcceptedAs H s .phrase → AcceptedAs H s k → k = .phrase := by
    intro k h1 h2
    by_contra hk
    obtain ⟨c, hc, hw⟩ := phrase_white h1
    rw [hwhite k hk h2 c hc] at hw
    cases hw
  -- the first characters tell the other kinds apart
  have hkey : AcceptedAs H s .extendedKey → ∃ c d t, s = c :: d :: t ∧ Letter c ∧ Letter d ∧ 110 < s.length := by
    intro h
    obtain ⟨h1, h2, _⟩ := key_shape h
    match s, h1, h2 with
    | c :: d :: t, h1, h2 => exact ⟨c, d, t, rfl, h2 c (by simp), h2 d (by simp), h1⟩
  have hchild : AcceptedAs H s .childNumber → ∃ c t, s = c :: t ∧ c.toNat ≤ 57 := by
    rintro ⟨x, h⟩
    obtain ⟨c, t, h1, h2 | h2⟩ := (child_chars (((C26_child_number_grammar s).1 x).1 h)).1
    · exact ⟨c, t, h1, by rw [h2]; decide⟩
    · exact ⟨c, t, h1, h2.2⟩
  have hm : 'm'.toNat = 109 := by decide
  have hsl : '/'.toNat = 47 := by decide
  have kc : AcceptedAs H s .extendedKey → AcceptedAs H s .childNumber → False := by
    intro h1 h2
    obtain ⟨c, d, t, e, l1, _⟩ := hkey h1
    obtain ⟨c', t', e', l2⟩ := hchild h2
    rw [e] at e'
    injection e' with e1 _
    subst e1
    have := hletter _ l1
    omega
  have kp : AcceptedAs H s .extendedKey → AcceptedAs H s .derivationPath → False := by
    intro h1 h2
    obtain ⟨c, d, t, e, _, l2, _⟩ := hkey h1
    rcases (path_shape h2).1 with e' | ⟨t', e'⟩
    · rw [e] at e'; simp at e'
    · rw [e] at e'
      injection e' with _ e2
      injection e2 with e2 _
      subst e2
      have := hletter _ l2
      omega
  have kl : AcceptedAs H s .extendedKey → AcceptedAs H s .languageCode → False := by
    intro h1 h2
    have a1 := (key_shape h1).1
    have a2 := (code_shape h2).1
    omega
  have cp : AcceptedAs H s .childNumber → AcceptedAs H s .derivationPath → False := by
    intro h1 h2
    obtain ⟨c, t, e, l⟩ := hchild h1
    have : c = 'm' := by
      rcases (path_shape h2).1 with e' | ⟨t', e'⟩ <;> (rw [e] at e'; injection e')
    subst this
    omega
  have cl : AcceptedAs H s .childNumber → AcceptedAs H s .languageCode → False := by
    intro h1 h2
    obtain ⟨c, t, e, l⟩ := hchild h1
    obtain ⟨c', t', e', l', _⟩ := (code_shape h2).2.1
    rw [e] at e'
    injection e' with e1 _
    subst e1
    omega
  have pl : AcceptedAs H s .derivationPath → AcceptedAs H s .languageCode → False := by
    intro h1 h2
    obtain ⟨c', t', e', _, l'⟩ := (code_shape h2).2.1
    rcases (path_shape h1).1 with e | ⟨t, e⟩ <;> (rw [e] at e'; injection e' with e1 _; exact l' e1.symm)
  cases a <;> cases b <;> first
    | rfl
    | exact (hp _ ha hb).symm
    | exact hp _ hb ha
    | exact (kc ha hb).elim
    | exact (kc hb ha).elim
    | exact (kp ha hb).elim
    | exact (kp hb ha).elim
    | exact (kl ha hb).elim
    | exact (kl hb ha).elim
    | exact (cp ha hb).elim
    | exact (cp hb ha).elim
    | exact (cl ha hb).elim
    | exact (cl hb ha).elim
    | exact (pl ha hb).elim
    | exact (pl hb ha).elim

/-- **C133** In the build with English and simplified Chinese, the functions of that build. -/
theorem C133_default_build (H : Hashes) (s : Str) :
    (∀ l m, Mnemonic.fromPhrase H s l = .ok m → AcceptedAs H s .phrase) ∧
    (∀ l, Mnemonic.validate H s l = .ok () → AcceptedAs H s .phrase) ∧
    (∀ l, Language.fromLanguageCode s = some l → AcceptedAs H s .languageCode) := by
  obtain ⟨_, _, h1, _, _, _, h2, h3, _⟩ := C94_no_features H
  refine ⟨fun l m h => ⟨ofLanguage l, .inl ⟨ofMnemonic m, ?_⟩⟩, fun l h => ⟨ofLanguage l, .inr ?_⟩,
    fun l h => ⟨Spec.All.noFeatures, ofLanguage l, ?_⟩⟩
  · rw [h2, h]; rfl
  · rw [h3, h]
  · rw [h1, h]; rfl

-- texts of the five kinds
example : AcceptedAs Real.hashes "m/44'/0'/1".toList .derivationPath ∧ AcceptedAs Real.hashes "44'".toList .childNumber ∧
    AcceptedAs Real.hashes "zh-CN".toList .languageCode := by
  refine ⟨?_, ?_, ?_⟩
  · have h : (DerivationPath.fromStr "m/44'/0'/1".toList).isOk = true := by decide +kernel
    cases e : DerivationPath.fromStr "m/44'/0'/1".toList with
    | ok p => exact ⟨p, e⟩
    | err _ => rw [e] at h; cases h
    | panic => rw [e] at h; cases h
  · have h : (ChildNumber.fromStr "44'".toList).isOk = true := by decide +kernel
    cases e : ChildNumber.fromStr "44'".toList with
    | ok p => exact ⟨p, e⟩
    | err _ => rw [e] at h; cases h
    | panic => rw [e] at h; cases h
  · exact ⟨Spec.All.noFeatures, .chineseSimplified, by decide +kernel⟩
example (H : Hashes) (k : XPrv) : ∃ s, k.toString H .XPRV = .ok s ∧ AcceptedAs H s .extendedKey := by
  obtain ⟨s, h1, h2⟩ := C38_xprv_round_trip H k .XPRV (by decide)
  exact ⟨s, h1, .inr (.inl ⟨_, h2⟩)⟩
example (H : Hashes) (e : Bytes) (he : e.length = 16) (l : Lang) :
    ∃ m, All.Mnemonic.fromEntropy H e l = .ok m ∧ AcceptedAs H m.phrase .phrase := by
  obtain ⟨h1, _, h2⟩ := (C94_all_phrases H l).1 e (by omega)
  obtain ⟨m, hm⟩ := h1.2 (by rw [he]; decide)
  exact ⟨m, hm, l, .inl ⟨m, (h2 m hm).2.2.2⟩⟩

end Kms.Props
