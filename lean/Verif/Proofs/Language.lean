import Verif.Model.Language
import Verif.Proofs.Text
import Mathlib.Data.List.Chain
import Mathlib.Data.Nat.Bitwise
/-
Facts about the two word lists and their maps.
-/
namespace Kms.Bip39
open Language

/-! ### order on strings -/

theorem strCmp_eq_iff (a b : Str) : strCmp a b = .eq ↔ a = b := by
  induction a generalizing b with
  | nil => cases b <;> simp [strCmp]
  | cons c cs ih =>
    cases b with
    | nil => simp [strCmp]
    | cons d ds =>
      simp only [strCmp]
      split
      · rename_i h; simp; rintro rfl; omega
      · split
        · rename_i h; simp; rintro rfl; omega
        · rename_i h1 h2
          have : c = d := Char.toNat_inj.mp (by omega)
          simp [ih, this]

theorem strCmp_trans {a b c : Str} (h1 : strCmp a b = .lt) (h2 : strCmp b c = .lt) : strCmp a c = .lt := by
  induction a generalizing b c with
  | nil =>
    cases b with
    | nil => simp [strCmp] at h1
    | cons y ys =>
      cases c with
      | nil => simp [strCmp] at h2
      | cons => simp [strCmp]
  | cons x xs ih =>
    cases b with
    | nil => simp [strCmp] at h1
    | cons y ys =>
      cases c with
      | nil => simp [strCmp] at h2
      | cons z zs =>
        simp only [strCmp] at h1 h2 ⊢
        split at h1
        · split at h2
          · rw [if_pos (by omega)]
          · split at h2
            · simp at h2
            · rw [if_pos (by omega)]
        · split at h1
          · simp at h1
          · split at h2
            · rw [if_pos (by omega)]
            · split at h2
              · simp at h2
              · rw [if_neg (by omega), if_neg (by omega)]
                exact ih h1 h2

theorem strCmp_gt_iff (a b : Str) : strCmp a b = .gt ↔ strCmp b a = .lt := by
  induction a generalizing b with
  | nil => cases b <;> simp [strCmp]
  | cons c cs ih =>
    cases b with
    | nil => simp [strCmp]
    | cons d ds =>
      simp only [strCmp]
      by_cases h1 : c.toNat < d.toNat
      · rw [if_pos h1, if_neg (by omega), if_pos h1]; simp
      · by_cases h2 : d.toNat < c.toNat
        · rw [if_neg h1, if_pos h2, if_pos h2]; simp
        · rw [if_neg h1, if_neg h2, if_neg h2, if_neg h1]; exact ih ds

theorem strCmp_self (a : Str) : strCmp a a = .eq := (strCmp_eq_iff a a).mpr rfl

/-! ### the data -/

/-- strictly increasing, checked pairwise -/
def chainLt : List Str → Bool
  | a :: b :: r => (strCmp a b == .lt) && chainLt (b :: r)
  | _ => true

theorem chainLt_sound (l : List Str) (h : chainLt l = true) : l.Pairwise (fun a b => strCmp a b = .lt) := by
  have hc : l.IsChain (fun a b => strCmp a b = .lt) := by
    induction l with
    | nil => simp
    | cons a r ih =>
      cases r with
      | nil => simp
      | cons b r =>
        simp [chainLt] at h
        simp only [List.isChain_cons_cons]
        exact ⟨h.1, ih h.2⟩
  have : IsTrans Str (fun a b => strCmp a b = .lt) := ⟨fun _ _ _ => strCmp_trans⟩
  exact List.isChain_iff_pairwise.mp hc

/-- no repeats, checked against a bit set -/
def distinctBits (seen : Nat) : List Nat → Bool
  | [] => true
  | n :: r => !seen.testBit n && distinctBits (seen ||| 2 ^ n) r

theorem distinctBits_sound (l : List Nat) (seen : Nat) (h : distinctBits seen l = true) :
    l.Nodup ∧ ∀ n ∈ l, seen.testBit n = false := by
  induction l generalizing seen with
  | nil => simp
  | cons n r ih =>
    simp [distinctBits] at h
    obtain ⟨h1, h2⟩ := ih _ h.2
    refine ⟨List.nodup_cons.mpr ⟨fun hm => ?_, h1⟩, ?_⟩
    · have := h2 n hm; simp at this
    · intro m hm
      simp at hm
      rcases hm with rfl | hm
      · exact h.1
      · have := h2 m hm; simp at this; exact this.1

/-- a lower-case Latin letter -/
def isLowerLatin (c : Char) : Bool := 97 ≤ c.toNat && c.toNat ≤ 122

/-- a CJK unified ideograph of the basic block -/
def isHan (c : Char) : Bool := 0x4E00 ≤ c.toNat && c.toNat ≤ 0x9F99

theorem english_length : Data.english.length = 2048 := by decide +kernel
theorem english_chain : chainLt Data.english = true := by decide +kernel
theorem english_chars : (Data.english.all fun w => !w.isEmpty && w.all isLowerLatin) = true := by decide +kernel

theorem chinese_length : Data.chineseSimplified.length = 2048 := by decide +kernel
theorem chinese_shape :
    (Data.chineseSimplified.all fun w => w.length == 1 && w.all isHan) = true := by decide +kernel
theorem chinese_distinct :
    distinctBits 0 (Data.chineseSimplified.map fun w => (w.headD 'a').toNat - 0x4E00) = true := by decide +kernel

theorem isLowerLatin_not_ws {c : Char} (h : isLowerLatin c = true) : isWhitespace c = false := by
  simp [isLowerLatin] at h
  simp [isWhitespace]; omega

theorem isHan_not_ws {c : Char} (h : isHan c = true) : isWhitespace c = false := by
  simp [isHan] at h
  simp [isWhitespace]; omega

theorem english_word {w : Str} (h : w ∈ Data.english) : w ≠ [] ∧ ∀ c ∈ w, isLowerLatin c = true := by
  have := List.all_eq_true.mp english_chars w h
  simpa using this

theorem chinese_word {w : Str} (h : w ∈ Data.chineseSimplified) : ∃ c, w = [c] ∧ isHan c = true := by
  have := List.all_eq_true.mp chinese_shape w h
  simp at this
  obtain ⟨h1, h2⟩ := this
  obtain ⟨c, rfl⟩ := List.length_eq_one_iff.mp h1
  exact ⟨c, rfl, h2 c (by simp)⟩

theorem english_pairwise : Data.english.Pairwise (fun a b => strCmp a b = .lt) := chainLt_sound _ english_chain

theorem english_nodup : Data.english.Nodup :=
  english_pairwise.imp (fun {a b} h e => by subst e; rw [strCmp_self] at h; simp at h)

theorem Nodup.of_map' {α β : Type} (f : α → β) {l : List α} (h : (l.map f).Nodup) : l.Nodup := by
  rw [List.nodup_iff_pairwise_ne, List.pairwise_map] at h
  exact h.imp (fun h e => h (by rw [e]))

theorem chinese_nodup : Data.chineseSimplified.Nodup :=
  Nodup.of_map' _ (distinctBits_sound _ _ chinese_distinct).1

theorem english_clean : ∀ w ∈ Data.english, w ≠ [] ∧ NoWs w := fun _ h =>
  ⟨(english_word h).1, fun c hc => isLowerLatin_not_ws ((english_word h).2 c hc)⟩

theorem chinese_clean : ∀ w ∈ Data.chineseSimplified, w ≠ [] ∧ NoWs w := by
  intro w h
  obtain ⟨c, rfl, hc⟩ := chinese_word h
  refine ⟨by simp, ?_⟩
  intro d hd
  simp at hd; subst hd
  exact isHan_not_ws hc

@[simp] theorem wordlist_english : wordlist .english = Data.english :=
  splitWhitespace_lines _ english_clean

@[simp] theorem wordlist_chinese : wordlist .chineseSimplified = Data.chineseSimplified :=
  splitWhitespace_lines _ chinese_clean

theorem wordlist_length (l : Language) : l.wordlist.length = 2048 := by
  cases l <;> simp [english_length, chinese_length]

theorem wordlist_nodup (l : Language) : l.wordlist.Nodup := by
  cases l <;> simp [english_nodup, chinese_nodup]

theorem wordlist_clean (l : Language) : ∀ w ∈ l.wordlist, w ≠ [] ∧ NoWs w := by
  cases l
  · rw [wordlist_english]; exact english_clean
  · rw [wordlist_chinese]; exact chinese_clean

theorem wordlists_disjoint {w : Str} (h1 : w ∈ wordlist .english) (h2 : w ∈ wordlist .chineseSimplified) :
    False := by
  rw [wordlist_english] at h1
  rw [wordlist_chinese] at h2
  obtain ⟨c, rfl, hc⟩ := chinese_word h2
  have := (english_word h1).2 c (by simp)
  simp [isHan] at hc
  simp [isLowerLatin] at this
  omega

/-! ### the map -/

theorem genWordmap_aux (wl : List Str) (k : Nat) (m : WordMap) (hn : wl.Nodup) (w : Str) :
    (wl.zipIdx k).foldl (fun m p => fun w => if w = p.1 then some (BitVec.ofNat 16 p.2) else m w) m w =
      if w ∈ wl then some (BitVec.ofNat 16 (k + wl.idxOf w)) else m w := by
  induction wl generalizing k m with
  | nil => simp
  | cons a r ih =>
    simp only [List.zipIdx_cons, List.foldl_cons]
    have hn' := List.nodup_cons.mp hn
    rw [ih (k + 1) _ hn'.2]
    by_cases hw : w = a
    · subst hw; simp [hn'.1]
    · have hw' : ¬ (a = w) := fun e => hw e.symm
      by_cases hm : w ∈ r
      · simp [hm, hw']; congr 1; omega
      · simp [hm, hw]

theorem wordmap_apply (l : Language) (w : Str) :
    l.wordmap w = if w ∈ l.wordlist then some (BitVec.ofNat 16 (l.wordlist.idxOf w)) else none := by
  unfold Language.wordmap genWordmap
  rw [genWordmap_aux _ _ _ (wordlist_nodup l)]; simp

theorem getBits_eq_ok_iff (l : Language) (w : Str) (b : Bits11) :
    getBits l.wordmap w = .ok b ↔ l.wordlist[b.toNat]? = some w := by
  unfold getBits
  rw [wordmap_apply]
  have hlen := wordlist_length l
  constructor
  · intro h
    split at h
    · rename_i n hn
      split at hn
      · rename_i hm
        simp at hn h
        subst h; subst hn
        have : l.wordlist.idxOf w < l.wordlist.length := List.idxOf_lt_length_of_mem hm
        rw [BitVec.toNat_ofNat, Nat.mod_eq_of_lt (by omega)]
        exact List.getElem?_idxOf hm
      · simp at hn
    · simp at h
  · intro h
    have hm : w ∈ l.wordlist := List.mem_of_getElem? h
    rw [if_pos hm]
    obtain ⟨hlt, hget⟩ := List.getElem?_eq_some_iff.mp h
    have : l.wordlist.idxOf w = b.toNat := by
      rw [← hget]; exact (wordlist_nodup l).idxOf_getElem _ hlt
    simp [this]

theorem getBits_eq_err_iff (l : Language) (w : Str) (e : ErrorKind) :
    getBits l.wordmap w = .err e ↔ e = .invalidWord ∧ w ∉ l.wordlist := by
  unfold getBits
  rw [wordmap_apply]
  by_cases h : w ∈ l.wordlist <;> simp [h, eq_comm]

theorem getBits_ne_panic (l : Language) (w : Str) : getBits l.wordmap w ≠ .panic := by
  unfold getBits; split <;> simp

theorem getBits_isOk_iff (l : Language) (w : Str) : (getBits l.wordmap w).isOk = true ↔ w ∈ l.wordlist := by
  unfold getBits
  rw [wordmap_apply]
  by_cases h : w ∈ l.wordlist <;> simp [h, Res.isOk]

theorem getWord_eq_ok_iff (l : Language) (b : Bits11) (w : Str) :
    getWord l.wordlist b = .ok w ↔ l.wordlist[b.toNat]? = some w := by
  unfold getWord; split <;> simp_all

theorem getWord_of_lt (l : Language) (b : Bits11) (h : b.toNat < 2048) :
    ∃ w, w ∈ l.wordlist ∧ getWord l.wordlist b = .ok w := by
  have hl : b.toNat < l.wordlist.length := by rw [wordlist_length]; exact h
  exact ⟨l.wordlist[b.toNat], List.getElem_mem hl, by rw [getWord_eq_ok_iff]; simp [hl]⟩

end Kms.Bip39
