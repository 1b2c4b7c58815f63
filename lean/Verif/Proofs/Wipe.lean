import Verif.Model.Wipe
/-
The wiping loops write zeros to every cell.
-/
namespace Kms

@[simp] theorem wipeFrom_length (i fuel : Nat) (mem : Bytes) : (wipeFrom i fuel mem).length = mem.length := by
  induction fuel generalizing i mem with
  | zero => rfl
  | succ f ih => rw [wipeFrom, ih, List.length_set]

theorem wipeFrom_get (i fuel : Nat) (mem : Bytes) (j : Nat) (hj : j < mem.length) :
    (wipeFrom i fuel mem)[j]? = if i ≤ j ∧ j < i + fuel then some 0 else mem[j]? := by
  induction fuel generalizing i mem with
  | zero => rw [wipeFrom, if_neg (by omega)]
  | succ f ih =>
    rw [wipeFrom, ih _ _ (by rw [List.length_set]; exact hj), List.getElem?_set]
    by_cases h1 : i = j
    · subst h1
      rw [if_neg (by omega), if_pos rfl, if_pos hj, if_pos (by omega)]
    · rw [if_neg h1]
      by_cases h2 : i + 1 ≤ j ∧ j < i + 1 + f
      · rw [if_pos h2, if_pos (by omega)]
      · rw [if_neg h2, if_neg (by omega)]

theorem wipe_all (mem : Bytes) : wipeFrom 0 mem.length mem = List.replicate mem.length 0 := by
  apply List.ext_getElem?
  intro j
  by_cases hj : j < mem.length
  · rw [wipeFrom_get _ _ _ _ hj, if_pos (by omega), List.getElem?_replicate, if_pos hj]
  · rw [List.getElem?_eq_none (by rw [wipeFrom_length]; omega),
      List.getElem?_eq_none (by rw [List.length_replicate]; omega)]

theorem zeroizeArr_eq {n : Nat} (a : ByteArr n) : zeroizeArr a = List.replicate n 0 := by
  have := wipe_all a.1
  rw [a.2] at this
  exact this

theorem VecMem.zeroize_eq (v : VecMem) : v.zeroize = List.replicate v.cells.length 0 := by
  unfold VecMem.zeroize
  have := wipe_all (wipeFrom 0 v.len v.cells)
  rw [wipeFrom_length] at this
  simpa using this

end Kms
