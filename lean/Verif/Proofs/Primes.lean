import Verif.Model.Secp256k1
import Mathlib.NumberTheory.LucasPrimality
import Mathlib.Tactic.NormNum.Prime
import Mathlib.Data.Nat.Prime.Basic
import Mathlib.Data.ZMod.Basic
/-
The field size and the group order of secp256k1 are prime.  Each certificate is Lucas's criterion with the complete
factorisation of N - 1; the powers are computed by the kernel with `powMod`.
-/
namespace Kms.Secp

theorem powMod_eq (fuel a e m : Nat) (h : e < 2 ^ fuel) : powMod fuel a e m = a ^ e % m := by
  induction fuel generalizing a e with
  | zero =>
    have : e = 0 := by simpa using h
    subst this
    rfl
  | succ n ih =>
    rw [powMod]
    by_cases h0 : e = 0
    · subst h0; simp
    · rw [if_neg h0]
      have hlt : e / 2 < 2 ^ n := by rw [pow_succ] at h; omega
      simp only [ih _ _ hlt]
      have hsq : (a * a % m) ^ (e / 2) % m = a ^ (2 * (e / 2)) % m := by
        rw [Nat.pow_mod, Nat.mod_mod, ← Nat.pow_mod, pow_mul, pow_two]
      by_cases h1 : e % 2 = 1
      · rw [if_pos h1, hsq]
        have : a ^ e = a * a ^ (2 * (e / 2)) := by
          conv_lhs => rw [show e = 2 * (e / 2) + 1 by omega]
          rw [pow_succ, Nat.mul_comm]
        rw [this, Nat.mul_mod, Nat.mod_mod, ← Nat.mul_mod]
      · rw [if_neg h1, hsq, show 2 * (e / 2) = e by omega]

/-- The part of the certificate that is arithmetic. -/
def lucasCheck (N a : Nat) (fs : List Nat) : Bool :=
  decide (1 < N) && decide (N < 2 ^ 256) && decide (fs.prod = N - 1) && decide (powMod 256 a (N - 1) N = 1) &&
    fs.all (fun q => decide (powMod 256 a ((N - 1) / q) N ≠ 1))

theorem lucas_list (N a : Nat) (fs : List Nat) (h : lucasCheck N a fs = true) (hp : ∀ q ∈ fs, Nat.Prime q) :
    Nat.Prime N := by
  unfold lucasCheck at h
  simp only [Bool.and_eq_true, decide_eq_true_eq, List.all_eq_true] at h
  obtain ⟨⟨⟨⟨h1, h2⟩, h3⟩, h4⟩, h5⟩ := h
  have hpow : ∀ e, e < 2 ^ 256 → (((a : ZMod N) ^ e = 1) ↔ powMod 256 a e N = 1) := by
    intro e he
    rw [powMod_eq _ _ _ _ he]
    have : ((a : ZMod N) ^ e = 1) ↔ ((a ^ e : ℕ) : ZMod N) = ((1 : ℕ) : ZMod N) := by push_cast; rfl
    rw [this, ZMod.natCast_eq_natCast_iff, Nat.ModEq, Nat.mod_eq_of_lt h1]
  refine lucas_primality N (a : ZMod N) ((hpow _ (by omega)).mpr h4) ?_
  intro q hq hdvd
  rw [Ne, hpow _ (lt_of_le_of_lt (Nat.div_le_self _ _) (by omega))]
  rw [← h3] at hdvd
  obtain ⟨r, hr, hqr⟩ := (Prime.dvd_prod_iff (Nat.prime_iff.mp hq)).mp hdvd
  have : q = r := (Nat.prime_dvd_prime_iff_eq hq (hp r hr)).mp hqr
  rw [this]
  exact h5 r hr

theorem prime_1206781 : Nat.Prime 1206781 := by
  apply lucas_list 1206781 10 [2, 2, 3, 5, 20113]
  · decide +kernel
  · intro q hq
    simp only [List.mem_cons, List.not_mem_nil, or_false] at hq
    rcases hq with rfl | rfl | rfl | rfl | rfl
    · norm_num
    · norm_num
    · norm_num
    · norm_num
    · norm_num

theorem prime_7240687 : Nat.Prime 7240687 := by
  apply lucas_list 7240687 3 [2, 3, 1206781]
  · decide +kernel
  · intro q hq
    simp only [List.mem_cons, List.not_mem_nil, or_false] at hq
    rcases hq with rfl | rfl | rfl
    · norm_num
    · norm_num
    · exact prime_1206781

theorem prime_107590001 : Nat.Prime 107590001 := by
  apply lucas_list 107590001 3 [2, 2, 2, 2, 5, 5, 5, 5, 7, 29, 53]
  · decide +kernel
  · intro q hq
    simp only [List.mem_cons, List.not_mem_nil, or_false] at hq
    rcases hq with rfl | rfl | rfl | rfl | rfl | rfl | rfl | rfl | rfl | rfl | rfl
    · norm_num
    · norm_num
    · norm_num
    · norm_num
    · norm_num
    · norm_num
    · norm_num
    · norm_num
    · norm_num
    · norm_num
    · norm_num

theorem prime_255515944373312847190720520512484175977 : Nat.Prime 255515944373312847190720520512484175977 := by
  apply lucas_list 255515944373312847190720520512484175977 3 [2, 2, 2, 7, 7, 11, 1627, 2657, 4423, 41201, 96557, 7240687, 107590001]
  · decide +kernel
  · intro q hq
    simp only [List.mem_cons, List.not_mem_nil, or_false] at hq
    rcases hq with rfl | rfl | rfl | rfl | rfl | rfl | rfl | rfl | rfl | rfl | rfl | rfl | rfl
    · norm_num
    · norm_num
    · norm_num
    · norm_num
    · norm_num
    · norm_num
    · norm_num
    · norm_num
    · norm_num
    · norm_num
    · norm_num
    · exact prime_7240687
    · exact prime_107590001

theorem prime_13331831 : Nat.Prime 13331831 := by
  apply lucas_list 13331831 13 [2, 5, 971, 1373]
  · decide +kernel
  · intro q hq
    simp only [List.mem_cons, List.not_mem_nil, or_false] at hq
    rcases hq with rfl | rfl | rfl | rfl
    · norm_num
    · norm_num
    · norm_num
    · norm_num

theorem prime_173378833005251801 : Nat.Prime 173378833005251801 := by
  apply lucas_list 173378833005251801 6 [2, 2, 2, 5, 5, 2621, 24809, 13331831]
  · decide +kernel
  · intro q hq
    simp only [List.mem_cons, List.not_mem_nil, or_false] at hq
    rcases hq with rfl | rfl | rfl | rfl | rfl | rfl | rfl | rfl
    · norm_num
    · norm_num
    · norm_num
    · norm_num
    · norm_num
    · norm_num
    · norm_num
    · exact prime_13331831

theorem prime_22149492674086928081353 : Nat.Prime 22149492674086928081353 := by
  apply lucas_list 22149492674086928081353 5 [2, 2, 2, 3, 5323, 173378833005251801]
  · decide +kernel
  · intro q hq
    simp only [List.mem_cons, List.not_mem_nil, or_false] at hq
    rcases hq with rfl | rfl | rfl | rfl | rfl | rfl
    · norm_num
    · norm_num
    · norm_num
    · norm_num
    · norm_num
    · exact prime_173378833005251801

theorem prime_132896956044521568488119 : Nat.Prime 132896956044521568488119 := by
  apply lucas_list 132896956044521568488119 6 [2, 3, 22149492674086928081353]
  · decide +kernel
  · intro q hq
    simp only [List.mem_cons, List.not_mem_nil, or_false] at hq
    rcases hq with rfl | rfl | rfl
    · norm_num
    · norm_num
    · exact prime_22149492674086928081353

theorem prime_205115282021455665897114700593932402728804164701536103180137503955397371 : Nat.Prime 205115282021455665897114700593932402728804164701536103180137503955397371 := by
  apply lucas_list 205115282021455665897114700593932402728804164701536103180137503955397371 10 [2, 3, 5, 29, 29, 31, 7723, 132896956044521568488119, 255515944373312847190720520512484175977]
  · decide +kernel
  · intro q hq
    simp only [List.mem_cons, List.not_mem_nil, or_false] at hq
    rcases hq with rfl | rfl | rfl | rfl | rfl | rfl | rfl | rfl | rfl
    · norm_num
    · norm_num
    · norm_num
    · norm_num
    · norm_num
    · norm_num
    · norm_num
    · exact prime_132896956044521568488119
    · exact prime_255515944373312847190720520512484175977

theorem prime_p : Nat.Prime 115792089237316195423570985008687907853269984665640564039457584007908834671663 := by
  apply lucas_list 115792089237316195423570985008687907853269984665640564039457584007908834671663 3 [2, 3, 7, 13441, 205115282021455665897114700593932402728804164701536103180137503955397371]
  · decide +kernel
  · intro q hq
    simp only [List.mem_cons, List.not_mem_nil, or_false] at hq
    rcases hq with rfl | rfl | rfl | rfl | rfl
    · norm_num
    · norm_num
    · norm_num
    · norm_num
    · exact prime_205115282021455665897114700593932402728804164701536103180137503955397371

theorem prime_44706919 : Nat.Prime 44706919 := by
  apply lucas_list 44706919 6 [2, 3, 797, 9349]
  · decide +kernel
  · intro q hq
    simp only [List.mem_cons, List.not_mem_nil, or_false] at hq
    rcases hq with rfl | rfl | rfl | rfl
    · norm_num
    · norm_num
    · norm_num
    · norm_num

theorem prime_120233 : Nat.Prime 120233 := by
  apply lucas_list 120233 3 [2, 2, 2, 7, 19, 113]
  · decide +kernel
  · intro q hq
    simp only [List.mem_cons, List.not_mem_nil, or_false] at hq
    rcases hq with rfl | rfl | rfl | rfl | rfl | rfl
    · norm_num
    · norm_num
    · norm_num
    · norm_num
    · norm_num
    · norm_num

theorem prime_174723607534414371449 : Nat.Prime 174723607534414371449 := by
  apply lucas_list 174723607534414371449 3 [2, 2, 2, 17, 59, 4051, 120233, 44706919]
  · decide +kernel
  · intro q hq
    simp only [List.mem_cons, List.not_mem_nil, or_false] at hq
    rcases hq with rfl | rfl | rfl | rfl | rfl | rfl | rfl | rfl
    · norm_num
    · norm_num
    · norm_num
    · norm_num
    · norm_num
    · norm_num
    · exact prime_120233
    · exact prime_44706919

theorem prime_4681609 : Nat.Prime 4681609 := by
  apply lucas_list 4681609 23 [2, 2, 2, 3, 97, 2011]
  · decide +kernel
  · intro q hq
    simp only [List.mem_cons, List.not_mem_nil, or_false] at hq
    rcases hq with rfl | rfl | rfl | rfl | rfl | rfl
    · norm_num
    · norm_num
    · norm_num
    · norm_num
    · norm_num
    · norm_num

theorem prime_107361793816595537 : Nat.Prime 107361793816595537 := by
  apply lucas_list 107361793816595537 3 [2, 2, 2, 2, 16699, 85831, 4681609]
  · decide +kernel
  · intro q hq
    simp only [List.mem_cons, List.not_mem_nil, or_false] at hq
    rcases hq with rfl | rfl | rfl | rfl | rfl | rfl | rfl
    · norm_num
    · norm_num
    · norm_num
    · norm_num
    · norm_num
    · norm_num
    · exact prime_4681609

theorem prime_305873 : Nat.Prime 305873 := by
  apply lucas_list 305873 3 [2, 2, 2, 2, 7, 2731]
  · decide +kernel
  · intro q hq
    simp only [List.mem_cons, List.not_mem_nil, or_false] at hq
    rcases hq with rfl | rfl | rfl | rfl | rfl | rfl
    · norm_num
    · norm_num
    · norm_num
    · norm_num
    · norm_num
    · norm_num

theorem prime_1627771 : Nat.Prime 1627771 := by
  apply lucas_list 1627771 3 [2, 3, 5, 29, 1871]
  · decide +kernel
  · intro q hq
    simp only [List.mem_cons, List.not_mem_nil, or_false] at hq
    rcases hq with rfl | rfl | rfl | rfl | rfl
    · norm_num
    · norm_num
    · norm_num
    · norm_num
    · norm_num

theorem prime_297159362677 : Nat.Prime 297159362677 := by
  apply lucas_list 297159362677 2 [2, 2, 3, 3, 11, 461, 1627771]
  · decide +kernel
  · intro q hq
    simp only [List.mem_cons, List.not_mem_nil, or_false] at hq
    rcases hq with rfl | rfl | rfl | rfl | rfl | rfl | rfl
    · norm_num
    · norm_num
    · norm_num
    · norm_num
    · norm_num
    · norm_num
    · exact prime_1627771

theorem prime_545358713 : Nat.Prime 545358713 := by
  apply lucas_list 545358713 5 [2, 2, 2, 41, 59, 28181]
  · decide +kernel
  · intro q hq
    simp only [List.mem_cons, List.not_mem_nil, or_false] at hq
    rcases hq with rfl | rfl | rfl | rfl | rfl | rfl
    · norm_num
    · norm_num
    · norm_num
    · norm_num
    · norm_num
    · norm_num

theorem prime_29047611873442575647497758179 : Nat.Prime 29047611873442575647497758179 := by
  apply lucas_list 29047611873442575647497758179 2 [2, 293, 305873, 545358713, 297159362677]
  · decide +kernel
  · intro q hq
    simp only [List.mem_cons, List.not_mem_nil, or_false] at hq
    rcases hq with rfl | rfl | rfl | rfl | rfl
    · norm_num
    · norm_num
    · exact prime_305873
    · exact prime_545358713
    · exact prime_297159362677

theorem prime_341948486974166000522343609283189 : Nat.Prime 341948486974166000522343609283189 := by
  apply lucas_list 341948486974166000522343609283189 2 [2, 2, 3, 3, 3, 109, 29047611873442575647497758179]
  · decide +kernel
  · intro q hq
    simp only [List.mem_cons, List.not_mem_nil, or_false] at hq
    rcases hq with rfl | rfl | rfl | rfl | rfl | rfl | rfl
    · norm_num
    · norm_num
    · norm_num
    · norm_num
    · norm_num
    · norm_num
    · exact prime_29047611873442575647497758179

theorem prime_n : Nat.Prime 115792089237316195423570985008687907852837564279074904382605163141518161494337 := by
  apply lucas_list 115792089237316195423570985008687907852837564279074904382605163141518161494337 7 [2, 2, 2, 2, 2, 2, 3, 149, 631, 107361793816595537, 174723607534414371449, 341948486974166000522343609283189]
  · decide +kernel
  · intro q hq
    simp only [List.mem_cons, List.not_mem_nil, or_false] at hq
    rcases hq with rfl | rfl | rfl | rfl | rfl | rfl | rfl | rfl | rfl | rfl | rfl | rfl
    · norm_num
    · norm_num
    · norm_num
    · norm_num
    · norm_num
    · norm_num
    · norm_num
    · norm_num
    · norm_num
    · exact prime_107361793816595537
    · exact prime_174723607534414371449
    · exact prime_341948486974166000522343609283189

end Kms.Secp
