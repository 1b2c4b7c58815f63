import Verif.Props.LeakText
/-
C120, continued: apart from the table entries, writing and reading key text with a usual prefix shows nothing of the key.
-/
namespace Kms.Props
open Kms Bip32 Spec

namespace LeakText
open Base58

/-- The view of the inner loop, by length. -/
def mulShape : Nat → Nat → List Ev
  | _, 0 => [.branch false]
  | i, n + 1 => [.branch true, .load "output" i, .store "output" i] ++ mulShape (i + 1) n

/-- The view of the loop that appends digits, by how many. -/
def pushShape : Nat → Nat → List Ev
  | _, 0 => [.branch false]
  | len, n + 1 => [.branch true, .branch false, .store "output" len] ++ pushShape (len + 1) n

/-- The view of a main loop, by the numbers of digits before and after each symbol. -/
def loopShape (mid : List Ev) : Nat → List Nat → List Ev
  | i, n :: n' :: r =>
    [.branch true, .load "input" i] ++ mid ++ (mulShape 0 n ++ pushShape n (n' - n)) ++ loopShape mid (i + 1) (n' :: r)
  | _, _ => [.branch false]

/-- The numbers of digits of the numbers that a main loop goes through. -/
def numLens (mul base : Nat) : List Nat → Nat → List Nat
  | [], v => [(Nat.digits base v).length]
  | x :: r, v => (Nat.digits base v).length :: numLens mul base r (mul * v + x)

theorem numLens_head (mul base : Nat) (l : List Nat) (v : Nat) :
    ∃ r, numLens mul base l v = (Nat.digits base v).length :: r := by
  cases l <;> exact ⟨_, rfl⟩

theorem mulAddSeen_shape (mul base i : Nat) (ds : List Nat) (c : Nat) :
    (mulAddSeen mul base i ds c).2 = mulShape i ds.length := by
  induction ds generalizing i c with
  | nil => rfl
  | cons d ds ih => simp only [mulAddSeen, mulShape, List.length_cons, ih]

theorem pushCarrySeen_shape (base cap fuel : Nat) (ds : List Nat) (c : Nat) (h : (pushCarrySeen base cap fuel ds c).1.2 = true) :
    ds.length ≤ (pushCarrySeen base cap fuel ds c).1.1.length ∧ (pushCarrySeen base cap fuel ds c).2 =
      pushShape ds.length ((pushCarrySeen base cap fuel ds c).1.1.length - ds.length) := by
  induction fuel generalizing ds c with
  | zero =>
    have hc : c = 0 := by simpa [pushCarrySeen] using h
    subst hc
    simp [pushCarrySeen, pushShape]
  | succ fuel ih =>
    by_cases hc : c > 0
    · by_cases hl : ds.length = cap
      · simp [pushCarrySeen, hc, hl] at h
      · simp only [pushCarrySeen, hc, hl, if_true, if_false] at h ⊢
        obtain ⟨h1, h2⟩ := ih _ _ h
        rw [List.length_append, List.length_singleton] at h1 h2
        refine ⟨by omega, ?_⟩
        rw [h2]
        obtain ⟨n, hn⟩ : ∃ n, (pushCarrySeen base cap fuel (ds ++ [c % base]) (c / base)).1.1.length - ds.length = n + 1 :=
          ⟨_, (Nat.succ_pred_eq_of_pos (by omega)).symm⟩
        rw [hn, pushShape]
        congr 2
        omega
    · simp [pushCarrySeen, hc, pushShape]

theorem stepSeen_shape (mul base cap : Nat) (ds : List Nat) (v : Nat) (ds' : List Nat)
    (h : step mul base cap ds v = (ds', true)) :
    (stepSeen mul base cap ds v).2 = mulShape 0 ds.length ++ pushShape ds.length (ds'.length - ds.length) := by
  have hv := stepSeen_val mul base cap ds v
  rw [h] at hv
  simp only [stepSeen] at hv ⊢
  obtain ⟨-, h2⟩ := pushCarrySeen_shape base cap _ _ _ (by rw [hv])
  rw [h2, hv, mulAddSeen_shape, mulAddSeen_val, mulAdd_length]

theorem encodeLoopSeen_shape (cap i : Nat) (b : Bytes) (v : Nat) (h : (Nat.digits 58 (foldBytes v b)).length ≤ cap) :
    (encodeLoopSeen cap i b (Nat.digits 58 v)).2 = loopShape [] i (numLens 256 58 (b.map UInt8.toNat) v) := by
  induction b generalizing i v with
  | nil => rfl
  | cons x b ih =>
    have h' : (Nat.digits 58 (foldBytes (256 * v + x.toNat) b)).length ≤ cap := h
    have hx : (Nat.digits 58 (256 * v + x.toNat)).length ≤ cap := le_trans (digits_len_mono (foldBytes_ge _ _)) h'
    have h0 : (Nat.digits 58 v).length ≤ cap := le_trans (digits_len_mono (by omega)) hx
    have hs := (step_spec (mul := 256) (base := 58) (by decide) (by decide) cap v x.toNat h0).1 hx
    have hss : (stepSeen 256 58 cap (Nat.digits 58 v) x.toNat).1 = (Nat.digits 58 (256 * v + x.toNat), true) := by
      rw [stepSeen_val, hs]
    simp only [encodeLoopSeen, hss, List.map_cons, numLens]
    rw [ih (i + 1) _ h', stepSeen_shape _ _ _ _ _ _ hs]
    obtain ⟨r, hr⟩ := numLens_head 256 58 (b.map UInt8.toNat) (256 * v + x.toNat)
    rw [hr, loopShape, List.append_nil]

theorem apart_append (a b : List Ev) : apartFromTables (a ++ b) = apartFromTables a ++ apartFromTables b := by
  simp [apartFromTables]

theorem decodeLoopSeen_shape (cap i : Nat) (s : Str) (v : Nat) (hs : ∀ c ∈ s, c ∈ alphabet)
    (h : (Nat.digits 256 (foldText v s)).length ≤ cap) :
    apartFromTables (decodeLoopSeen cap i s (Nat.digits 256 v)).2 =
      apartFromTables (loopShape [.branch false, .branch false] i (numLens 58 256 (s.map (alphabet.idxOf ·)) v)) := by
  induction s generalizing i v with
  | nil => rfl
  | cons c s ih =>
    have h' : (Nat.digits 256 (foldText (58 * v + alphabet.idxOf c) s)).length ≤ cap := h
    have hx : (Nat.digits 256 (58 * v + alphabet.idxOf c)).length ≤ cap := le_trans (digits_len_mono (foldText_ge _ _)) h'
    have h0 : (Nat.digits 256 v).length ≤ cap := le_trans (digits_len_mono (by omega)) hx
    have hst := (step_spec (mul := 58) (base := 256) (by decide) (by decide) cap v (alphabet.idxOf c) h0).1 hx
    have hss : (stepSeen 58 256 cap (Nat.digits 256 v) (alphabet.idxOf c)).1 =
        (Nat.digits 256 (58 * v + alphabet.idxOf c), true) := by rw [stepSeen_val, hst]
    have hc : c ∈ alphabet := hs c (by simp)
    simp only [decodeLoopSeen, alphabet_ascii c hc, if_false, charVal_some hc, hss, List.map_cons, numLens]
    obtain ⟨r, hr⟩ := numLens_head 58 256 (s.map (alphabet.idxOf ·)) (58 * v + alphabet.idxOf c)
    have ih' := ih (i + 1) _ (fun c hc => hs c (by simp [hc])) h'
    rw [hr] at ih' ⊢
    rw [loopShape, stepSeen_shape _ _ _ _ _ _ hst]
    simp only [apart_append, ih']
    rfl

/-- No power of `base` is among the numbers that continue `P` with `j` more symbols. -/
def Clear (mul base P j : Nat) : Prop := ∃ d < 113, base ^ d ≤ P * mul ^ j ∧ (P + 1) * mul ^ j ≤ base ^ (d + 1)

instance (mul base P j : Nat) : Decidable (Clear mul base P j) := inferInstanceAs (Decidable (∃ _, _))

theorem Clear.length {mul base P j : Nat} (hb : 1 < base) (h : Clear mul base P j) {v v' : Nat}
    (h1 : P * mul ^ j ≤ v) (h2 : v < (P + 1) * mul ^ j) (h1' : P * mul ^ j ≤ v') (h2' : v' < (P + 1) * mul ^ j) :
    (Nat.digits base v).length = (Nat.digits base v').length := by
  obtain ⟨d, -, ha, hc⟩ := h
  have key : ∀ w, P * mul ^ j ≤ w → w < (P + 1) * mul ^ j → (Nat.digits base w).length = d + 1 := by
    intro w hw1 hw2
    have hle := (Nat.digits_length_le_iff hb w (k := d + 1)).mpr (lt_of_lt_of_le hw2 hc)
    have hlt := (Nat.lt_digits_length_iff hb w (k := d)).mpr (le_trans ha hw1)
    omega
  rw [key v h1 h2, key v' h1' h2']

theorem numLens_clear {mul base P m : Nat} (hb : 1 < base) (r r' : List Nat) (j v v' : Nat) (hlen : r.length = r'.length)
    (hr : ∀ x ∈ r, x < mul) (hr' : ∀ x ∈ r', x < mul) (hc : ∀ i ≤ m, Clear mul base P i) (hm : j + r.length ≤ m)
    (h1 : P * mul ^ j ≤ v) (h2 : v < (P + 1) * mul ^ j) (h1' : P * mul ^ j ≤ v') (h2' : v' < (P + 1) * mul ^ j) :
    numLens mul base r v = numLens mul base r' v' := by
  have h0 := (hc j (by omega)).length hb h1 h2 h1' h2'
  have up : ∀ w x, x < mul → P * mul ^ j ≤ w → w < (P + 1) * mul ^ j →
      P * mul ^ (j + 1) ≤ mul * w + x ∧ mul * w + x < (P + 1) * mul ^ (j + 1) := by
    intro w x hx hw1 hw2
    constructor
    · calc P * mul ^ (j + 1) = mul * (P * mul ^ j) := by ring
        _ ≤ mul * w := Nat.mul_le_mul_left _ hw1
        _ ≤ _ := Nat.le_add_right _ _
    · calc mul * w + x < mul * w + mul := by omega
        _ = mul * (w + 1) := by ring
        _ ≤ mul * ((P + 1) * mul ^ j) := Nat.mul_le_mul_left _ hw2
        _ = _ := by ring
  induction r generalizing r' j v v' with
  | nil =>
    cases r' with
    | nil => simp only [numLens, h0]
    | cons => simp at hlen
  | cons x r ih =>
    cases r' with
    | nil => simp at hlen
    | cons x' r' =>
      simp only [numLens, h0, List.cons.injEq, true_and]
      obtain ⟨a1, a2⟩ := up v x (hr x (by simp)) h1 h2
      obtain ⟨b1, b2⟩ := up v' x' (hr' x' (by simp)) h1' h2'
      simp only [List.length_cons] at hlen hm
      refine ih r' (j + 1) _ _ (by omega) (fun y hy => hr y (by simp [hy])) (fun y hy => hr' y (by simp [hy])) (by omega)
        a1 a2 b1 b2 ((hc (j + 1) (by omega)).length hb a1 a2 b1 b2) ?_
      intro w y hy hw1 hw2
      constructor
      · calc P * mul ^ (j + 1 + 1) = mul * (P * mul ^ (j + 1)) := by ring
          _ ≤ mul * w := Nat.mul_le_mul_left _ hw1
          _ ≤ _ := Nat.le_add_right _ _
      · calc mul * w + y < mul * w + mul := by omega
          _ = mul * (w + 1) := by ring
          _ ≤ mul * ((P + 1) * mul ^ (j + 1)) := Nat.mul_le_mul_left _ hw2
          _ = _ := by ring

/-- The number that symbols stand for. -/
def value (mul : Nat) (v : Nat) (l : List Nat) : Nat := l.foldl (fun v x => mul * v + x) v

theorem numLens_append {mul base : Nat} (a r r' : List Nat) (v : Nat)
    (h : numLens mul base r (value mul v a) = numLens mul base r' (value mul v a)) :
    numLens mul base (a ++ r) v = numLens mul base (a ++ r') v := by
  induction a generalizing v with
  | nil => exact h
  | cons x a ih =>
    simp only [List.cons_append, numLens, List.cons.injEq, true_and]
    exact ih _ h

theorem numLens_last (mul base : Nat) (l : List Nat) (v : Nat) :
    (numLens mul base l v).getLastD 0 = (Nat.digits base (value mul v l)).length := by
  induction l generalizing v with
  | nil => rfl
  | cons x l ih =>
    have := ih (mul * v + x)
    obtain ⟨r, hr⟩ := numLens_head mul base l (mul * v + x)
    simp only [numLens, value, List.foldl_cons] at this ⊢
    rw [← this, hr]
    simp [List.getLastD]

theorem value_bytes (v : Nat) (b : Bytes) : value 256 v (b.map UInt8.toNat) = foldBytes v b := by
  simp only [value, foldBytes, List.foldl_map]

theorem value_text (v : Nat) (s : Str) : value 58 v (s.map (alphabet.idxOf ·)) = foldText v s := by
  simp only [value, foldText, List.foldl_map]

/-- What is seen of the lookups, without the entries. -/
def alphaShape : Nat → Nat → List Ev
  | _, 0 => [.branch false]
  | i, n + 1 => [.branch true, .load "output" i, .store "output" i] ++ alphaShape (i + 1) n

theorem alphabetSeen_shape (i : Nat) (ds : List Nat) : apartFromTables (alphabetSeen i ds) = alphaShape i ds.length := by
  induction ds generalizing i with
  | nil => rfl
  | cons d ds ih => simp only [alphabetSeen, alphaShape, List.length_cons, apart_append, ih]; rfl

theorem foldBytes_lt (b : Bytes) : foldBytes 0 b < 256 ^ b.length := by
  rw [foldBytes_eq]
  have := Nat.ofDigits_lt_base_pow_length (b := 256) (l := (b.map UInt8.toNat).reverse) (by decide) (by
    intro x hx
    simp only [List.mem_reverse, List.mem_map] at hx
    obtain ⟨y, -, rfl⟩ := hx
    exact y.toNat_lt)
  simpa using this

theorem encodeIntoSeen_shape (b : Bytes) (hb : b.length = 82) (x : UInt8) (rest : Bytes) (hx : b = x :: rest) (hx0 : x ≠ 0) :
    apartFromTables (encodeIntoSeen 112 b).2 =
      apartFromTables (loopShape [] 0 (numLens 256 58 (b.map UInt8.toNat) 0)) ++ [.branch true, .load "input" 0, .branch false] ++
        alphaShape 0 ((numLens 256 58 (b.map UInt8.toNat) 0).getLastD 0) ++
        apartFromTables (reverseSeen ((numLens 256 58 (b.map UInt8.toNat) 0).getLastD 0)) := by
  have hfit : (Nat.digits 58 (foldBytes 0 b)).length ≤ 112 := by
    rw [Nat.digits_length_le_iff (by decide)]
    have h := foldBytes_lt b
    rw [hb] at h
    exact lt_of_lt_of_le h (by decide +kernel)
  have hl := (encodeLoop_spec 112 b 0 (by simp)).1 hfit
  have hv := encodeLoopSeen_shape 112 0 b 0 hfit
  rw [Nat.digits_zero] at hl hv
  have e1 : (encodeLoopSeen 112 0 b []).1 = (Nat.digits 58 (foldBytes 0 b), true) := by rw [encodeLoopSeen_val, hl]
  have e2 : pushZerosSeen (· = 0) 112 0 b (Nat.digits 58 (foldBytes 0 b)) =
      ((Nat.digits 58 (foldBytes 0 b), true), [.branch true, .load "input" 0, .branch false]) := by
    rw [hx]
    simp [pushZerosSeen, hx0]
  simp only [encodeIntoSeen, e1, e2, hv, numLens_last, value_bytes, apart_append, alphabetSeen_shape]
  rfl

theorem reverseSeen_apart (n : Nat) : apartFromTables (reverseSeen n) = reverseSeen n := by
  unfold reverseSeen
  induction List.range (n / 2) with
  | nil => rfl
  | cons i l ih => simp only [List.flatMap_cons, apart_append, ih]; rfl

theorem foldText_pow (v : Nat) (s : Str) : v * 58 ^ s.length ≤ foldText v s := by
  induction s generalizing v with
  | nil => simp [foldText]
  | cons c s ih =>
    calc v * 58 ^ (c :: s).length = (58 * v) * 58 ^ s.length := by rw [List.length_cons]; ring
      _ ≤ (58 * v + alphabet.idxOf c) * 58 ^ s.length := Nat.mul_le_mul_right _ (Nat.le_add_right _ _)
      _ ≤ _ := ih _

theorem decodeCheckSeen_shape (H : Hashes) (s : Str) (n : Nat) (buf : Bytes) (c : Char) (rest : Str) (hc : s = c :: rest)
    (hc1 : c ≠ '1') (h : decodeCheck H 82 s = (buf, .ok n)) :
    buf.length = 82 ∧ s.length ≤ 112 ∧ (∀ c ∈ s, c ∈ alphabet) ∧
    n = (numLens 58 256 (s.map (alphabet.idxOf ·)) 0).getLastD 0 - 4 ∧
    apartFromTables (decodeCheckSeen H 82 s).2 =
      apartFromTables (loopShape [.branch false, .branch false] 0 (numLens 58 256 (s.map (alphabet.idxOf ·)) 0)) ++
        [.branch true, .load "input" 0, .branch false] ++
        reverseSeen ((numLens 58 256 (s.map (alphabet.idxOf ·)) 0).getLastD 0) ++
        [.branch false, .hash n, .hash 32, .branch false] := by
  have hz : zerosS s = 0 := by simp [zerosS, hc, hc1]
  have hlen : (bytes s).length = (Nat.digits 256 (foldText 0 s)).length := by simp [bytes, hz]
  have hok : (∀ c ∈ s, c ∈ alphabet) ∧ (bytes s).length ≤ 82 := by
    by_contra hn
    obtain ⟨b, e, hb⟩ := (decodeInto_spec 82 s).2 hn
    simp [decodeCheck, hb] at h
  have hd := (decodeInto_spec 82 s).1 hok.1 hok.2
  have hfit : (Nat.digits 256 (foldText 0 s)).length ≤ 82 := hlen ▸ hok.2
  have hl := (decodeLoop_spec 82 s 0 (by simp)).1 hok.1 hfit
  have hv := decodeLoopSeen_shape 82 0 s 0 hok.1 hfit
  rw [Nat.digits_zero] at hl hv
  have e1 : (decodeLoopSeen 82 0 s []).1 = (Nat.digits 256 (foldText 0 s), none) := by rw [decodeLoopSeen_val, hl]
  have e2 : pushZerosSeen (· = '1') 82 0 s (Nat.digits 256 (foldText 0 s)) =
      ((Nat.digits 256 (foldText 0 s), true), [.branch true, .load "input" 0, .branch false]) := by
    rw [hc]
    simp [pushZerosSeen, hc1]
  have hdv : (decodeIntoSeen 82 s).1 = (bytes s ++ List.replicate (82 - (bytes s).length) 0, .ok (bytes s).length) := by
    rw [decodeIntoSeen_val, hd]
  have hlast : (numLens 58 256 (s.map (alphabet.idxOf ·)) 0).getLastD 0 = (bytes s).length := by
    rw [numLens_last, value_text, hlen]
  have hview : apartFromTables (decodeIntoSeen 82 s).2 =
      apartFromTables (loopShape [.branch false, .branch false] 0 (numLens 58 256 (s.map (alphabet.idxOf ·)) 0)) ++
        [.branch true, .load "input" 0, .branch false] ++ reverseSeen (bytes s).length := by
    simp only [decodeIntoSeen, e1, e2, apart_append, hv, reverseSeen_apart, hlen]
    rfl
  simp only [decodeCheck, hd] at h
  split at h
  · simp at h
  · split at h
    · simp at h
    · rename_i h4 hck
      simp only [Prod.mk.injEq, Res.ok.injEq] at h
      obtain ⟨hbuf, hn⟩ := h
      refine ⟨by rw [← hbuf]; simp; omega, ?_, hok.1, by rw [hlast, hn], ?_⟩
      · have hpow : 58 ^ rest.length ≤ foldText 0 s := by
          have hi : 1 ≤ 58 * 0 + alphabet.idxOf c := by
            have := (idxOf_zero c).not.mpr hc1
            omega
          rw [hc]
          exact le_trans (Nat.le_mul_of_pos_left _ hi) (foldText_pow _ rest)
        have hlt : foldText 0 s < 256 ^ 82 := (Nat.digits_length_le_iff (by decide) _).mp hfit
        have h112 : rest.length < 112 := by
          by_contra hge
          have h1 : 58 ^ 112 ≤ 58 ^ rest.length := Nat.pow_le_pow_right (by decide) (by omega)
          have h2 : 256 ^ 82 ≤ 58 ^ 112 := by decide +kernel
          omega
        rw [hc, List.length_cons]
        omega
      · subst hn
        simp only [decodeCheckSeen, hdv, if_neg h4]
        rw [if_neg hck]
        simp only [apart_append, hview, hlast]
        rfl

end LeakText
open LeakText

/-- C120: apart from the entries of the table, writing an extended key with a usual prefix shows nothing but the prefix. -/
theorem C120_writing_shows_nothing_else (H : Hashes) (k k' : ExtendedKey)
    (hp : k.pfx ∈ [Prefix.TPRV, .TPUB, .XPRV, .XPUB, .YPRV, .YPUB, .ZPRV, .ZPUB]) (h : k'.pfx = k.pfx) :
    apartFromTables (k.toStringSeen H).view = apartFromTables (k'.toStringSeen H).view := by
  have hclear : ∀ p ∈ [Prefix.TPRV, .TPUB, .XPRV, .XPUB, .YPRV, .YPUB, .ZPRV, .ZPUB],
      p.toBytes.1.headD 0 ≠ 0 ∧ ∀ i ≤ 78, Clear 256 58 (value 256 0 (p.toBytes.1.map UInt8.toNat)) i := by decide +kernel
  obtain ⟨hz, hc⟩ := hclear _ hp
  -- what is encoded, after the four bytes of the version
  have hsplit : ∀ e : ExtendedKey, ∃ r : Bytes, r.length = 78 ∧
      e.serialize ++ Base58.checksum H e.serialize = e.pfx.toBytes.1 ++ r := by
    intro e
    refine ⟨e.serialize.drop 4 ++ Base58.checksum H e.serialize, ?_, ?_⟩
    · simp [ExtendedKey.serialize_length, Base58.checksum_length]
    · rw [← List.append_assoc]
      congr 1
  obtain ⟨r, hr, he⟩ := hsplit k
  obtain ⟨r', hr', he'⟩ := hsplit k'
  rw [h] at he'
  obtain ⟨x, t, hx⟩ : ∃ x t, k.pfx.toBytes.1 = x :: t := by
    cases hx : k.pfx.toBytes.1 with
    | nil => have := k.pfx.toBytes.2; rw [hx] at this; simp at this
    | cons x t => exact ⟨x, t, rfl⟩
  have hx0 : x ≠ 0 := by rw [hx] at hz; exact hz
  have hn : numLens 256 58 ((k.pfx.toBytes.1 ++ r).map UInt8.toNat) 0 = numLens 256 58 ((k.pfx.toBytes.1 ++ r').map UInt8.toNat) 0 := by
    rw [List.map_append, List.map_append]
    apply numLens_append
    have small : ∀ l : Bytes, ∀ y ∈ l.map UInt8.toNat, y < 256 := by
      intro l y hy
      obtain ⟨z, -, rfl⟩ := List.mem_map.mp hy
      exact z.toNat_lt
    exact numLens_clear (m := 78) (by decide) _ _ 0 _ _ (by simp [hr, hr']) (small r) (small r') hc (by simp [hr])
      (by simp) (by simp) (by simp) (by simp)
  have len : ∀ q : Bytes, q.length = 78 → (k.pfx.toBytes.1 ++ q).length = 82 := by
    intro q hq; rw [List.length_append, k.pfx.toBytes.2, hq]
  have s1 := encodeIntoSeen_shape _ (len r hr) x (t ++ r) (by rw [hx]; rfl) hx0
  have s2 := encodeIntoSeen_shape _ (len r' hr') x (t ++ r') (by rw [hx]; rfl) hx0
  rw [← hn] at s2
  have key : ∀ e : ExtendedKey, apartFromTables (e.toStringSeen H).view = [.hash 78, .hash 32] ++
      apartFromTables (Base58.encodeIntoSeen 112 (e.serialize ++ Base58.checksum H e.serialize)).2 ++ [.branch true] ++
      apartFromTables (ExtendedKey.wipeSeen 78) := by
    intro e
    obtain ⟨s, -, hs, -⟩ := C41_write_base58_total H e
    rw [← toStringSeen_out] at hs
    simp only [ExtendedKey.toStringSeen, Base58.encodeCheckSeen] at hs ⊢
    split at hs
    · simp only [apart_append, ExtendedKey.serialize_length]
      rfl
    · simp at hs
  rw [key k, key k', he, he', s1, s2]

/-- C120 is not vacuous: two private keys with different secrets and texts. -/
example (H : Hashes) (s : Secp.SecretKey) (hs : s ≠ exKey.privateKey) :
    let k := exKey.toExtendedKey .XPRV
    let k' := (XPrv.mk s exKey.attrs).toExtendedKey .XPRV
    apartFromTables (k.toStringSeen H).view = apartFromTables (k'.toStringSeen H).view ∧
      (k.toStringSeen H).view ≠ (k'.toStringSeen H).view := by
  refine ⟨C120_writing_shows_nothing_else H _ _ (show Prefix.XPRV ∈ _ by decide) rfl, fun h => hs ?_⟩
  have := ((C120_writing_shows_the_text H).2.2 exKey ⟨s, exKey.attrs⟩ .XPRV .XPRV h).1
  rw [this]

/-- C120: apart from the entries of the table, reading an extended key shows nothing but its four letters, if they are usual
ones, and its length. -/
theorem C120_reading_shows_nothing_else (H : Hashes) (s s' : Str) (k k' : ExtendedKey) (hk : ExtendedKey.fromStr H s = .ok k)
    (hk' : ExtendedKey.fromStr H s' = .ok k') (hlen : s.length = s'.length) (hfour : s.take 4 = s'.take 4)
    (hstd : s.take 4 ∈ ["tprv", "tpub", "xprv", "xpub", "yprv", "ypub", "zprv", "zpub"].map String.toList) :
    apartFromTables (ExtendedKey.fromStrSeen H s).view = apartFromTables (ExtendedKey.fromStrSeen H s').view := by
  have hclear : ∀ p ∈ ["tprv", "tpub", "xprv", "xpub", "yprv", "ypub", "zprv", "zpub"].map String.toList,
      p.length = 4 ∧ p.headD '1' ≠ '1' ∧ ∀ i ≤ 108, Clear 58 256 (value 58 0 (p.map (Base58.alphabet.idxOf ·))) i := by
    decide +kernel
  obtain ⟨h4, h1, hc⟩ := hclear _ hstd
  -- an accepted text: what decoding it gives
  have dec : ∀ (t : Str) (e : ExtendedKey), ExtendedKey.fromStr H t = .ok e →
      ∃ buf, Base58.decodeCheck H 82 t = (buf, .ok 78) := by
    intro t e ht
    simp only [ExtendedKey.fromStr, ExtendedKey.fromStrBuf] at ht
    rcases hd : Base58.decodeCheck H (ExtendedKey.BYTE_SIZE + 4) t with ⟨buf, n | e | _⟩
    · rw [hd] at ht
      by_cases hn : n = ExtendedKey.BYTE_SIZE
      · subst hn
        exact ⟨buf, hd⟩
      · simp [hn] at ht
    · rw [hd] at ht; simp at ht
    · rw [hd] at ht; simp at ht
  obtain ⟨buf, hd⟩ := dec s k hk
  obtain ⟨buf', hd'⟩ := dec s' k' hk'
  have first : ∀ t : Str, t.take 4 = s.take 4 → ∃ c rest, t = c :: rest ∧ c ≠ '1' := by
    intro t ht
    cases t with
    | nil => rw [← ht] at h4; simp at h4
    | cons c rest =>
      rw [← ht] at h1
      exact ⟨c, rest, rfl, by simpa using h1⟩
  obtain ⟨c, rest, hs, hc1⟩ := first s rfl
  obtain ⟨c', rest', hs', hc1'⟩ := first s' hfour.symm
  obtain ⟨b1, l1, a1, n1, v1⟩ := decodeCheckSeen_shape H s 78 buf c rest hs hc1 hd
  obtain ⟨b2, l2, a2, n2, v2⟩ := decodeCheckSeen_shape H s' 78 buf' c' rest' hs' hc1' hd'
  have hn : numLens 58 256 (s.map (Base58.alphabet.idxOf ·)) 0 = numLens 58 256 (s'.map (Base58.alphabet.idxOf ·)) 0 := by
    rw [← List.take_append_drop 4 s, ← List.take_append_drop 4 s', ← hfour, List.map_append, List.map_append]
    apply numLens_append
    have small : ∀ t : Str, (∀ c ∈ t, c ∈ Base58.alphabet) → ∀ y ∈ (t.drop 4).map (Base58.alphabet.idxOf ·), y < 58 := by
      intro t ht y hy
      obtain ⟨z, hz, rfl⟩ := List.mem_map.mp hy
      exact List.idxOf_lt_length_iff.mpr (ht z (List.mem_of_mem_drop hz))
    exact numLens_clear (m := 108) (by decide) _ _ 0 _ _ (by simp [hlen]) (small s a1) (small s' a2) hc
      (by simp; omega) (by simp) (by simp) (by simp) (by simp)
  rw [← hn] at v2
  have key : ∀ (t : Str) (e : ExtendedKey) (b : Bytes), ExtendedKey.fromStr H t = .ok e →
      Base58.decodeCheck H 82 t = (b, .ok 78) → b.length = 82 → apartFromTables (ExtendedKey.fromStrSeen H t).view =
        apartFromTables (Base58.decodeCheckSeen H 82 t).2 ++ [.branch true, .branch false, .branch true] ++
        apartFromTables (ExtendedKey.wipeSeen 82) := by
    intro t e b ht hb hbl
    have ho := fromStrSeen_out H t
    rw [ht] at ho
    have hv : (Base58.decodeCheckSeen H (ExtendedKey.BYTE_SIZE + 4) t).1 = (b, .ok ExtendedKey.BYTE_SIZE) := by
      rw [decodeCheckSeen_val]; exact hb
    simp only [ExtendedKey.fromStrSeen, hv] at ho ⊢
    rw [if_neg (by simp)] at ho ⊢
    split at ho
    · simp at ho
    · simp at ho
    · split at ho
      · simp only [apart_append, hbl]
        rfl
      · simp at ho
  rw [key s k buf hk hd b1, key s' k' buf' hk' hd' b2, v1, v2]

/-- C120 is not vacuous: the texts of two private keys. -/
example (H : Hashes) (s : Secp.SecretKey) : ∃ t t', exKey.toString H .XPRV = .ok t ∧ (XPrv.mk s exKey.attrs).toString H .XPRV = .ok t' ∧
    apartFromTables (ExtendedKey.fromStrSeen H t).view = apartFromTables (ExtendedKey.fromStrSeen H t').view := by
  have acc : ∀ k : XPrv, ∃ t e, k.toString H .XPRV = .ok t ∧ ExtendedKey.fromStr H t = .ok e ∧ t.length = 111 ∧
      t.take 4 = "xprv".toList := by
    intro k
    obtain ⟨t, -, ht, -, -, -, h⟩ := C41_write_base58_total H (k.toExtendedKey .XPRV)
    obtain ⟨h1, h2⟩ := h (show Prefix.XPRV ∈ _ by decide)
    have hp : (k.toExtendedKey .XPRV).pfx.asStr = .ok "xprv".toList := (show Prefix.XPRV.asStr = _ by decide)
    rw [hp] at h2
    obtain ⟨u, hu, hr⟩ := C38_xprv_round_trip H k .XPRV (by decide)
    have hut : u = t := by
      have : k.toString H .XPRV = .ok t := ht
      rw [hu] at this
      simpa using this
    subst hut
    unfold XPrv.fromStr at hr
    cases hf : ExtendedKey.fromStr H u with
    | ok e => exact ⟨u, e, hu, hf, h1, by simpa using h2.symm⟩
    | err e => rw [hf] at hr; exact absurd hr (by simp)
    | panic => rw [hf] at hr; exact absurd hr (by simp)
  obtain ⟨t, e, h1, h2, h3, h4⟩ := acc exKey
  obtain ⟨t', e', h1', h2', h3', h4'⟩ := acc ⟨s, exKey.attrs⟩
  exact ⟨t, t', h1, h1', C120_reading_shows_nothing_else H t t' e e' h2 h2' (by rw [h3, h3']) (by rw [h4, h4'])
    (by rw [h4]; decide)⟩

end Kms.Props
