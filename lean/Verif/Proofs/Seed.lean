import Verif.Spec.Mnemonic
import Verif.Proofs.Nfkd
import Mathlib.Data.List.Nodup
/-
HMAC, PBKDF2, hex printing and the GB18030 bytes of Chinese phrases.
-/
namespace Kms
open Spec

theorem hmacKey_length (H : Hashes) (key : Bytes) : (H.hmacKey key).length = 128 := by
  unfold Hashes.hmacKey
  simp only
  split
  · simp; omega
  · simp [(H.sha512 key).2]

theorem hmacKey_map (H : Hashes) (key : Bytes) (x : UInt8) :
    (H.hmacKey key).map (· ^^^ x) =
      (List.range 128).map (fun i => (if key.length > 128 then (H.sha512 key).1 else key).getD i 0 ^^^ x) := by
  apply List.ext_getElem
  · simp [hmacKey_length]
  · intro i h1 h2
    simp only [List.getElem_map, List.getElem_range]
    congr 1
    unfold Hashes.hmacKey
    simp only
    have hsw : (if key.length ≤ 128 then key else (H.sha512 key).1) =
        (if key.length > 128 then (H.sha512 key).1 else key) := by
      split <;> split <;> first | rfl | omega
    generalize (if key.length > 128 then (H.sha512 key).1 else key) = k at hsw ⊢
    simp only [hsw]
    rw [List.getElem_append]
    split
    · rename_i h
      rw [List.getD_eq_getElem?_getD, List.getElem?_eq_getElem h, Option.getD_some]
    · rename_i h
      rw [List.getElem_replicate, List.getD_eq_getElem?_getD, List.getElem?_eq_none (by omega), Option.getD_none]

theorem hmacSha512_spec (H : Hashes) (key msg : Bytes) :
    (H.hmacSha512 key msg).1 = Spec.hmac (fun b => (H.sha512 b).1) key msg := by
  unfold Hashes.hmacSha512 Spec.hmac
  simp only [hmacKey_map]

theorem pbkdf2Loop_spec (H : Hashes) (P S : Bytes) (n j : Nat) :
    H.pbkdf2Loop P n (pbkdf2U (Spec.hmac (fun b => (H.sha512 b).1)) P S j)
      (pbkdf2T (Spec.hmac (fun b => (H.sha512 b).1)) P S j) =
    pbkdf2T (Spec.hmac (fun b => (H.sha512 b).1)) P S (j + n) := by
  induction n generalizing j with
  | zero => rfl
  | succ n ih =>
    unfold Hashes.pbkdf2Loop
    simp only [hmacSha512_spec, xorBytes]
    have := ih (j + 1)
    rw [show j + (n + 1) = j + 1 + n by omega, ← this]
    rfl

theorem zero_xor_bytes (u : Bytes) (n : Nat) (h : u.length = n) : xorBytes (List.replicate n 0) u = u := by
  subst h
  unfold xorBytes
  induction u with
  | nil => rfl
  | cons a u ih => rw [List.length_cons, List.replicate_succ, List.zipWith_cons_cons, ih]; simp

theorem pbkdf2Body_spec (H : Hashes) (P S : Bytes) (n : Nat) :
    H.pbkdf2Body 0 P S (n + 1) = pbkdf2T (Spec.hmac (fun b => (H.sha512 b).1)) P S n := by
  unfold Hashes.pbkdf2Body
  simp only [Nat.add_sub_cancel, Nat.zero_add]
  rw [zero_xor_bytes _ _ (H.hmacSha512 P _).2]
  have h := pbkdf2Loop_spec H P S n 0
  rw [Nat.zero_add] at h
  rw [← h]
  have e : natBE 4 1 = [0, 0, 0, 1] := by decide
  rw [e]
  have u0 : (H.hmacSha512 P (S ++ [0, 0, 0, 1])).1 = pbkdf2U (Spec.hmac (fun b => (H.sha512 b).1)) P S 0 :=
    hmacSha512_spec H P _
  rw [u0]
  rfl

theorem pbkdf2U_length (prf : Bytes → Bytes → Bytes) (hp : ∀ k m, (prf k m).length = 64) (P S : Bytes) (j : Nat) :
    (pbkdf2U prf P S j).length = 64 := by
  cases j <;> exact hp _ _

theorem pbkdf2T_length (prf : Bytes → Bytes → Bytes) (hp : ∀ k m, (prf k m).length = 64) (P S : Bytes) (j : Nat) :
    (pbkdf2T prf P S j).length = 64 := by
  induction j with
  | zero => exact hp _ _
  | succ j ih => unfold pbkdf2T; rw [List.length_zipWith, ih, pbkdf2U_length prf hp]; rfl

/-! ### the GB18030 table -/

/-- the set of numbers in a list -/
def bitset (l : List Nat) : Nat := l.foldl (fun s n => s ||| 2 ^ n) 0

theorem bitset_aux (l : List Nat) (s n : Nat) :
    (l.foldl (fun s n => s ||| 2 ^ n) s).testBit n = true ↔ s.testBit n = true ∨ n ∈ l := by
  induction l generalizing s with
  | nil => simp
  | cons m l ih =>
    rw [List.foldl_cons, ih, Nat.testBit_or]
    simp only [Nat.testBit_two_pow, Bool.or_eq_true, decide_eq_true_eq, List.mem_cons]
    constructor
    · rintro ((h | h) | h)
      · exact Or.inl h
      · exact Or.inr (Or.inl h.symm)
      · exact Or.inr (Or.inr h)
    · rintro (h | h | h)
      · exact Or.inl (Or.inl h)
      · exact Or.inl (Or.inr h.symm)
      · exact Or.inr h

theorem mem_of_bitset {l : List Nat} {n : Nat} (h : (bitset l).testBit n = true) : n ∈ l := by
  have := (bitset_aux l 0 n).mp h
  simpa using this

theorem gb_keys : (let b := bitset (Data.gb18030.map Prod.fst)
    Data.chineseSimplified.all fun w => w.all fun c => b.testBit c.toNat) = true := by decide +kernel
theorem gb_codes_distinct : Bip39.distinctBits 0 (Data.gb18030.map Prod.snd) = true := by decide +kernel
theorem gb_codes_range : (Data.gb18030.all fun p => 0x8140 ≤ p.2 && p.2 < 0x10000 && 0x7F < p.1) = true := by
  decide +kernel

theorem lookup_of_key {β : Type} {k : Nat} {l : List (Nat × β)} (h : k ∈ l.map Prod.fst) : ∃ v, l.lookup k = some v := by
  induction l with
  | nil => simp at h
  | cons p l ih =>
    obtain ⟨k', v⟩ := p
    rw [List.lookup_cons]
    by_cases hk : k = k'
    · subst hk; simp
    · simp at h
      have : (k == k') = false := by simpa using hk
      rw [this]
      rcases h with h | h
      · exact absurd h hk
      · exact ih (by simpa using h)

namespace Bip39
open Mnemonic

/-- A character of the Chinese list has a two-byte code, which determines it. -/
theorem gb_of_word {c : Char} (h : [c] ∈ Data.chineseSimplified) :
    ∃ code, (c.toNat, code) ∈ Data.gb18030 ∧ 0x8140 ≤ code ∧ code < 0x10000 ∧
      gb18030Char c = [UInt8.ofNat (code / 256), UInt8.ofNat code] := by
  have h1 := gb_keys
  rw [List.all_eq_true] at h1
  have h2 := List.all_eq_true.mp (h1 _ h) c (by simp)
  obtain ⟨code, hc⟩ := lookup_of_key (mem_of_bitset h2)
  have hm := mem_of_lookup hc
  have hr := List.all_eq_true.mp gb_codes_range _ hm
  simp at hr
  refine ⟨code, hm, hr.1.1, hr.1.2, ?_⟩
  unfold gb18030Char
  rw [if_neg (by omega), hc]

theorem gb_inj {c d : Char} (hc : [c] ∈ Data.chineseSimplified) (hd : [d] ∈ Data.chineseSimplified)
    (h : gb18030Char c = gb18030Char d) : c = d := by
  obtain ⟨k, hk, k1, k2, hkc⟩ := gb_of_word hc
  obtain ⟨k', hk', k1', k2', hkd⟩ := gb_of_word hd
  rw [hkc, hkd] at h
  simp only [List.cons.injEq, and_true] at h
  obtain ⟨ha, hb⟩ := h
  have ha := congrArg UInt8.toNat ha
  have hb := congrArg UInt8.toNat hb
  simp only [UInt8.toNat_ofNat'] at ha hb
  have : k = k' := by omega
  subst this
  have hn := (distinctBits_sound _ _ gb_codes_distinct).1
  have := List.inj_on_of_nodup_map hn hk hk' rfl
  simpa [Char.toNat_inj] using this

/-- The first byte of a word character's code is not a space. -/
theorem gb_head {c : Char} (hc : [c] ∈ Data.chineseSimplified) :
    ∃ a b, gb18030Char c = [a, b] ∧ a ≠ 0x20 := by
  obtain ⟨k, hk, k1, k2, hkc⟩ := gb_of_word hc
  refine ⟨_, _, hkc, ?_⟩
  intro h
  have := congrArg UInt8.toNat h
  simp only [UInt8.toNat_ofNat'] at this
  have h20 : (0x20 : UInt8).toNat = 32 := rfl
  rw [h20] at this
  omega

theorem gb_space : gb18030Char ' ' = [0x20] := by
  unfold gb18030Char
  rw [if_pos (by decide)]
  rfl

/-- The encoder is uniquely decodable on strings of list characters and spaces. -/
theorem gb_flatMap_inj (s t : Str) (hs : ∀ c ∈ s, c = ' ' ∨ [c] ∈ Data.chineseSimplified)
    (ht : ∀ c ∈ t, c = ' ' ∨ [c] ∈ Data.chineseSimplified)
    (h : s.flatMap gb18030Char = t.flatMap gb18030Char) : s = t := by
  induction s generalizing t with
  | nil =>
    cases t with
    | nil => rfl
    | cons d t =>
      rcases ht d (by simp) with rfl | hd
      · simp [gb_space] at h
      · obtain ⟨a, b, e, -⟩ := gb_head hd
        simp [e] at h
  | cons c s ih =>
    cases t with
    | nil =>
      rcases hs c (by simp) with rfl | hd
      · simp [gb_space] at h
      · obtain ⟨a, b, e, -⟩ := gb_head hd
        simp [e] at h
    | cons d t =>
      have hs' : ∀ c ∈ s, c = ' ' ∨ [c] ∈ Data.chineseSimplified := fun x hx => hs x (by simp [hx])
      have ht' : ∀ c ∈ t, c = ' ' ∨ [c] ∈ Data.chineseSimplified := fun x hx => ht x (by simp [hx])
      rw [List.flatMap_cons, List.flatMap_cons] at h
      rcases hs c (by simp) with rfl | hc <;> rcases ht d (by simp) with rfl | hd
      · simp only [gb_space, List.cons_append, List.nil_append, List.cons.injEq, true_and] at h
        rw [ih t hs' ht' h]
      · obtain ⟨a, b, e, hne⟩ := gb_head hd
        rw [gb_space, e] at h
        simp only [List.cons_append, List.nil_append, List.cons.injEq] at h
        exact absurd h.1.symm hne
      · obtain ⟨a, b, e, hne⟩ := gb_head hc
        rw [gb_space, e] at h
        simp only [List.cons_append, List.nil_append, List.cons.injEq] at h
        exact absurd h.1 hne
      · obtain ⟨a, b, e, -⟩ := gb_head hc
        obtain ⟨a', b', e', -⟩ := gb_head hd
        have hcd : gb18030Char c = gb18030Char d := by
          rw [e, e'] at h ⊢
          simp only [List.cons_append, List.nil_append, List.cons.injEq] at h
          rw [h.1, h.2.1]
        rw [gb_inj hc hd hcd]
        rw [hcd] at h
        rw [ih t hs' ht' (List.append_cancel_left h)]

end Bip39
end Kms
