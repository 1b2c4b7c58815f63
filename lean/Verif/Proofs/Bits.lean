import Verif.Model.Bits
import Verif.Spec.Bits
/-
Refinement of `BitWriter` and `BitIter` to bit strings.
-/
namespace Kms.Spec

@[simp] theorem bitsOfNat_length (w n : Nat) : (bitsOfNat w n).length = w := by simp [bitsOfNat]

@[simp] theorem bitsOfBytes_nil : bitsOfBytes [] = [] := rfl

@[simp] theorem bitsOfBytes_cons (b : UInt8) (bs : List UInt8) :
    bitsOfBytes (b :: bs) = bitsOfNat 8 b.toNat ++ bitsOfBytes bs := by
  simp [bitsOfBytes]

@[simp] theorem bitsOfBytes_append (a b : List UInt8) :
    bitsOfBytes (a ++ b) = bitsOfBytes a ++ bitsOfBytes b := by
  simp [bitsOfBytes]

@[simp] theorem bitsOfBytes_length (bs : List UInt8) : (bitsOfBytes bs).length = 8 * bs.length := by
  induction bs with
  | nil => rfl
  | cons b bs ih => simp [ih]; omega

theorem bitsOfNat_eq_msb {w : Nat} (x : BitVec w) :
    bitsOfNat w x.toNat = (List.range w).map x.getMsbD := by
  apply List.ext_getElem
  · simp
  · intro i h1 h2
    simp [bitsOfNat] at h1 ⊢
    simp [BitVec.getMsbD, h1, BitVec.getLsbD]

theorem natOfBits_append_single (l : List Bool) (b : Bool) :
    natOfBits (l ++ [b]) = 2 * natOfBits l + b.toNat := by
  simp [natOfBits]

theorem natOfBits_foldl (l : List Bool) (a : Nat) :
    l.foldl (fun a b => 2 * a + b.toNat) a = a * 2 ^ l.length + natOfBits l := by
  induction l generalizing a with
  | nil => simp [natOfBits]
  | cons b l ih =>
    simp only [List.foldl_cons, natOfBits, List.length_cons]
    rw [ih, ih (2 * 0 + b.toNat)]
    rw [Nat.pow_succ]
    simp only [Nat.mul_zero, Nat.zero_add, Nat.add_mul]
    rw [Nat.mul_comm 2 a, Nat.mul_assoc, Nat.mul_comm (2 ^ l.length) 2, Nat.add_assoc]

theorem natOfBits_cons (b : Bool) (l : List Bool) :
    natOfBits (b :: l) = b.toNat * 2 ^ l.length + natOfBits l := by
  have := natOfBits_foldl l b.toNat
  simpa [natOfBits] using this

theorem natOfBits_append (a b : List Bool) :
    natOfBits (a ++ b) = natOfBits a * 2 ^ b.length + natOfBits b := by
  have := natOfBits_foldl b (natOfBits a)
  simpa [natOfBits, List.foldl_append] using this

theorem natOfBits_lt (l : List Bool) : natOfBits l < 2 ^ l.length := by
  induction l with
  | nil => simp [natOfBits]
  | cons b l ih =>
    rw [natOfBits_cons, List.length_cons, Nat.pow_succ]
    cases b <;> simp <;> omega

theorem bitsOfNat_succ (w n : Nat) : bitsOfNat (w + 1) n = bitsOfNat w (n / 2) ++ [n.testBit 0] := by
  apply List.ext_getElem
  · simp
  · intro i h1 h2
    simp only [bitsOfNat_length] at h1
    by_cases hi : i < w
    · rw [List.getElem_append_left (by simpa using hi)]
      simp only [bitsOfNat, List.getElem_map, List.getElem_range]
      rw [Nat.testBit_div_two]
      congr 1; omega
    · have : i = w := by omega
      subst this
      simp [bitsOfNat]

theorem natOfBits_bitsOfNat (w n : Nat) : natOfBits (bitsOfNat w n) = n % 2 ^ w := by
  induction w generalizing n with
  | zero => simp [bitsOfNat, natOfBits, Nat.mod_one]
  | succ w ih =>
    rw [bitsOfNat_succ, natOfBits_append_single, ih, Nat.testBit_zero]
    rw [Nat.pow_succ, Nat.mul_comm (2 ^ w) 2, Nat.mod_mul]
    have : (decide (n % 2 = 1)).toNat = n % 2 := by
      rcases Nat.mod_two_eq_zero_or_one n with h | h <;> simp [h]
    omega

theorem bitsOfNat_succ' (w n : Nat) : bitsOfNat (w + 1) n = n.testBit w :: bitsOfNat w n := by
  apply List.ext_getElem
  · simp
  · intro i h1 h2
    cases i with
    | zero => simp [bitsOfNat]
    | succ i =>
      simp only [bitsOfNat, List.getElem_map, List.getElem_range, List.getElem_cons_succ]
      congr 1; omega

theorem bitsOfNat_mod (w n : Nat) : bitsOfNat w (n % 2 ^ w) = bitsOfNat w n := by
  apply List.ext_getElem
  · simp
  · intro i h1 h2
    simp only [bitsOfNat_length] at h1
    simp only [bitsOfNat, List.getElem_map, List.getElem_range, Nat.testBit_mod_two_pow]
    have : w - 1 - i < w := by omega
    simp [this]

theorem bitsOfNat_natOfBits (l : List Bool) : bitsOfNat l.length (natOfBits l) = l := by
  induction l with
  | nil => rfl
  | cons b l ih =>
    rw [List.length_cons, bitsOfNat_succ', natOfBits_cons]
    have hlt := natOfBits_lt l
    congr 1
    · rw [Nat.testBit_eq_decide_div_mod_eq]
      rw [Nat.add_comm, Nat.add_mul_div_right _ _ (Nat.two_pow_pos _), Nat.div_eq_of_lt hlt]
      cases b <;> simp
    · rw [← bitsOfNat_mod, Nat.mul_comm, Nat.mul_add_mod, Nat.mod_eq_of_lt hlt, ih]

theorem natOfBits_inj {a b : List Bool} (hl : a.length = b.length) (h : natOfBits a = natOfBits b) :
    a = b := by
  rw [← bitsOfNat_natOfBits a, ← bitsOfNat_natOfBits b, hl, h]

theorem bitsOfBytes_inj {a b : List UInt8} (h : bitsOfBytes a = bitsOfBytes b) : a = b := by
  induction a generalizing b with
  | nil =>
    cases b with
    | nil => rfl
    | cons y b => have := congrArg List.length h; simp at this; omega
  | cons x a ih =>
    cases b with
    | nil => have := congrArg List.length h; simp at this
    | cons y b =>
      simp only [bitsOfBytes_cons] at h
      have h2 := List.append_inj h (by simp)
      have h3 := congrArg natOfBits h2.1
      rw [natOfBits_bitsOfNat, natOfBits_bitsOfNat,
        Nat.mod_eq_of_lt x.toNat_lt, Nat.mod_eq_of_lt y.toNat_lt] at h3
      rw [ih h2.2, UInt8.toNat_inj.mp h3]

/-- Every bit string of length `8 n` is the bit string of some `n` bytes. -/
theorem exists_bytes_of_bits (n : Nat) (l : List Bool) (h : l.length = 8 * n) :
    ∃ bs : List UInt8, bs.length = n ∧ bitsOfBytes bs = l := by
  induction n generalizing l with
  | zero => exact ⟨[], rfl, by simp at h; simp [h]⟩
  | succ n ih =>
    obtain ⟨bs, hb1, hb2⟩ := ih (l.drop 8) (by simp; omega)
    have hlen : (l.take 8).length = 8 := by simp; omega
    have hlt : natOfBits (l.take 8) < 256 := by
      have := natOfBits_lt (l.take 8); rw [hlen] at this; simpa using this
    refine ⟨UInt8.ofNat (natOfBits (l.take 8)) :: bs, by simp [hb1], ?_⟩
    rw [bitsOfBytes_cons, hb2]
    have h1 : (UInt8.ofNat (natOfBits (l.take 8))).toNat = natOfBits (l.take 8) := by
      simp [Nat.mod_eq_of_lt hlt]
    have h2 := bitsOfNat_natOfBits (l.take 8)
    rw [hlen] at h2
    rw [h1, h2, List.take_append_drop]

end Kms.Spec

namespace Kms.Bip39
open Kms.Spec

namespace BitWriter

/-- The bit string written so far. -/
def bits (w : BitWriter) : List Bool :=
  bitsOfBytes w.inner ++ (List.range w.offset).map w.remainder.getMsbD

/-- Representation invariant: fewer than 8 pending bits, and the unused part of the register is 0. -/
def Inv (w : BitWriter) : Prop :=
  w.offset < 8 ∧ ∀ i, w.offset ≤ i → w.remainder.getMsbD i = false

theorem inv_withCapacity : withCapacity.Inv := by
  simp [Inv, withCapacity]

theorem bits_withCapacity : withCapacity.bits = [] := rfl

theorem top_byte (r : BitVec 32) :
    bitsOfNat 8 (UInt8.ofBitVec ((r >>> 24).setWidth 8)).toNat = (List.range 8).map r.getMsbD := by
  have : (UInt8.ofBitVec ((r >>> 24).setWidth 8)).toNat = ((r >>> 24).setWidth 8 : BitVec 8).toNat := rfl
  rw [this, bitsOfNat_eq_msb]
  apply List.map_congr_left
  intro i hi
  simp at hi
  simp [BitVec.getMsbD, BitVec.getLsbD_ushiftRight]
  have h1 : i < 8 := hi
  have h2 : i < 32 := by omega
  simp [h1, h2]
  have : 24 + (7 - i) = 31 - i := by omega
  rw [this]
  simp [show 7 - i < 8 by omega]

theorem flush_spec (offset : Nat) (r : BitVec 32) (inner : Bytes)
    (hz : ∀ i, offset ≤ i → r.getMsbD i = false) :
    (flush offset r inner).bits = bitsOfBytes inner ++ (List.range offset).map r.getMsbD ∧
    (flush offset r inner).Inv := by
  induction offset using Nat.strongRecOn generalizing r inner with
  | ind offset ih =>
    by_cases h : 8 ≤ offset
    · obtain ⟨k, rfl⟩ : ∃ k, offset = k + 8 := ⟨offset - 8, by omega⟩
      rw [flush]
      have hz' : ∀ i, k ≤ i → (r <<< 8).getMsbD i = false := by
        intro i hi
        rw [BitVec.getMsbD_shiftLeft]
        exact hz _ (by omega)
      obtain ⟨e, hi⟩ := ih k (by omega) (r <<< 8)
        (inner ++ [UInt8.ofBitVec ((r >>> 24).setWidth 8)]) hz'
      refine ⟨?_, hi⟩
      rw [e, bitsOfBytes_append, bitsOfBytes_cons, bitsOfBytes_nil, List.append_nil, top_byte,
        List.append_assoc]
      congr 1
      rw [Nat.add_comm k 8, List.range_add, List.map_append, List.map_map]
      congr 1
      apply List.map_congr_left
      intro i _
      simp [BitVec.getMsbD_shiftLeft, Nat.add_comm]
    · have : flush offset r inner = { offset, remainder := r, inner } := by
        rw [flush]
        intro k hk; omega
      rw [this]
      exact ⟨rfl, by simp only; omega, hz⟩

theorem getMsbD_source (v : Bits11) (o i : Nat) (ho : o < 8) :
    (((v.setWidth 32) <<< (32 - 11)) >>> o).getMsbD i =
      (decide (o ≤ i ∧ i < o + 11) && v.toNat.testBit (10 - (i - o))) := by
  simp only [BitVec.getMsbD_ushiftRight, BitVec.getMsbD_shiftLeft]
  simp only [BitVec.getMsbD, BitVec.getLsbD_setWidth]
  by_cases h1 : i < 32
  · by_cases h2 : i < o
    · simp [h2, show ¬ o ≤ i by omega]
    · by_cases h3 : i < o + 11
      · have e : 32 - 1 - (i - o + (32 - 11)) = 10 - (i - o) := by omega
        simp [h1, h2, h3, show o ≤ i by omega, show i - o + 21 < 32 by omega, BitVec.getLsbD]
        intros; omega
      · simp [h3]; intros; omega
  · simp [h1]; intros; omega

theorem push_spec (w : BitWriter) (h : w.Inv) (v : Bits11) :
    (w.push v).bits = w.bits ++ bitsOfNat 11 v.toNat ∧ (w.push v).Inv := by
  obtain ⟨ho, hz⟩ := h
  unfold push
  have hz' : ∀ i, w.offset + 11 ≤ i →
      (w.remainder ||| (((v.setWidth 32) <<< (32 - 11)) >>> w.offset)).getMsbD i = false := by
    intro i hi
    rw [BitVec.getMsbD_or, getMsbD_source v _ _ ho, hz i (by omega)]
    simp; intros; omega
  obtain ⟨e, hi⟩ := flush_spec (w.offset + 11) _ w.inner hz'
  refine ⟨?_, hi⟩
  rw [e, bits, List.append_assoc, List.range_add, List.map_append, List.map_map]
  congr 2
  · apply List.map_congr_left
    intro i hi
    simp at hi
    rw [BitVec.getMsbD_or, getMsbD_source v _ _ ho]
    simp; intros; omega
  · unfold bitsOfNat
    apply List.map_congr_left
    intro i hi
    simp at hi
    simp only [Function.comp]
    rw [BitVec.getMsbD_or, getMsbD_source v _ _ ho, hz _ (by omega)]
    simp [hi]

theorem len_eq (w : BitWriter) : w.len = w.bits.length := by
  simp [len, bits]; omega

/-- Final bytes: the written bits, padded with zeros to a whole number of bytes. -/
theorem intoBytes_spec (w : BitWriter) (h : w.Inv) :
    bitsOfBytes w.intoBytes =
      w.bits ++ List.replicate ((8 - w.bits.length % 8) % 8) false := by
  obtain ⟨ho, hz⟩ := h
  have hlen : w.bits.length % 8 = w.offset := by simp [bits]; omega
  rw [hlen]
  unfold intoBytes bits
  split
  · rename_i h0
    rw [bitsOfBytes_append, bitsOfBytes_cons, bitsOfBytes_nil, List.append_nil, top_byte,
      List.append_assoc]
    congr 1
    have : 8 = w.offset + (8 - w.offset) % 8 := by omega
    conv => lhs; rw [this, List.range_add, List.map_append, List.map_map]
    congr 1
    rw [List.eq_replicate_iff]
    refine ⟨by simp, ?_⟩
    intro b hb
    simp at hb
    obtain ⟨a, _, rfl⟩ := hb
    exact hz _ (by omega)
  · rename_i h0
    have : w.offset = 0 := by omega
    simp [this]

/-- Pushing a sequence of values. -/
theorem foldl_push_spec (vs : List Bits11) (w : BitWriter) (h : w.Inv) :
    (vs.foldl push w).bits = w.bits ++ vs.flatMap (fun v => bitsOfNat 11 v.toNat) ∧
    (vs.foldl push w).Inv := by
  induction vs generalizing w with
  | nil => simp [h]
  | cons v vs ih =>
    obtain ⟨e, hi⟩ := push_spec w h v
    obtain ⟨e2, hi2⟩ := ih (w.push v) hi
    simp only [List.foldl_cons, List.flatMap_cons]
    exact ⟨by rw [e2, e, List.append_assoc], hi2⟩

end BitWriter

namespace BitIter

/-- The bit string not yet delivered. -/
def bits (it : BitIter) : List Bool :=
  (List.range it.read).map it.buffer.getMsbD ++ bitsOfBytes it.source

/-- Representation invariant. -/
def Inv (it : BitIter) : Prop :=
  it.read ≤ 18 ∧ ∀ i, it.read ≤ i → it.buffer.getMsbD i = false

theorem getMsbD_byte (b : UInt8) (r i : Nat) (hr : r ≤ 10) :
    ((b.toBitVec.setWidth 64) <<< (64 - (r + 8)) : BitVec 64).getMsbD i =
      (decide (r ≤ i ∧ i < r + 8) && b.toNat.testBit (7 - (i - r))) := by
  rw [BitVec.getMsbD_shiftLeft]
  simp only [BitVec.getMsbD, BitVec.getLsbD_setWidth]
  have hb : b.toNat < 2 ^ 8 := b.toNat_lt
  by_cases h3 : i < r + 8
  · by_cases h2 : r ≤ i
    · have e : 63 - (i + (56 - r)) = 7 - (i - r) := by omega
      simp [h2, h3, BitVec.getLsbD, e, show i + (56 - r) < 64 by omega]
      intros; omega
    · simp [h2]
      intro h4 h5
      rw [BitVec.getLsbD_of_ge]
      omega
  · simp [h3]; intros; omega

theorem fill_none {source : Bytes} {read : Nat} {buffer : BitVec 64}
    (hr : read ≤ 18) (h : fill source read buffer = none) : read + 8 * source.length < 11 := by
  induction source generalizing read buffer with
  | nil => simp [fill] at h; simp; omega
  | cons b rest ih =>
    rw [fill] at h
    split at h
    · rename_i hlt
      have := ih (by omega) h
      simp; omega
    · simp at h

theorem fill_spec {source : Bytes} {read : Nat} {buffer : BitVec 64} {it : BitIter}
    (hr : read ≤ 18) (hz : ∀ i, read ≤ i → buffer.getMsbD i = false)
    (h : fill source read buffer = some it) :
    it.bits = (BitIter.mk source read buffer).bits ∧ it.Inv ∧ 11 ≤ it.read := by
  induction source generalizing read buffer with
  | nil =>
    simp [fill] at h
    obtain ⟨h1, rfl⟩ := h
    exact ⟨rfl, ⟨hr, hz⟩, h1⟩
  | cons b rest ih =>
    rw [fill] at h
    split at h
    · rename_i hlt
      have hz' : ∀ i, read + 8 ≤ i →
          (buffer ||| ((b.toBitVec.setWidth 64) <<< (64 - (read + 8)))).getMsbD i = false := by
        intro i hi
        rw [BitVec.getMsbD_or, getMsbD_byte b _ _ (by omega), hz _ (by omega)]
        simp; intros; omega
      obtain ⟨e, hi, h11⟩ := ih (by omega) hz' h
      refine ⟨?_, hi, h11⟩
      rw [e]
      simp only [bits]
      rw [List.range_add, List.map_append, List.map_map, bitsOfBytes_cons, List.append_assoc]
      congr 1
      · apply List.map_congr_left
        intro i hi
        simp at hi
        rw [BitVec.getMsbD_or, getMsbD_byte b _ _ (by omega)]
        simp; intros; omega
      · congr 1
        unfold bitsOfNat
        apply List.map_congr_left
        intro i hi
        simp at hi
        simp only [Function.comp]
        rw [BitVec.getMsbD_or, getMsbD_byte b _ _ (by omega), hz _ (by omega)]
        simp [hi]
    · simp at h
      subst h
      exact ⟨rfl, ⟨hr, hz⟩, by simp; omega⟩

theorem top11 (b : BitVec 64) :
    ((b >>> (64 - 11)).setWidth 16 : Bits11).toNat = natOfBits ((List.range 11).map b.getMsbD) := by
  have h : bitsOfNat 11 (b.toNat >>> 53) = (List.range 11).map b.getMsbD := by
    unfold bitsOfNat
    apply List.map_congr_left
    intro i hi
    simp at hi
    simp [BitVec.getMsbD, BitVec.getLsbD, show i < 64 by omega]
    congr 1; omega
  rw [← h, natOfBits_bitsOfNat]
  have hb : b.toNat >>> 53 < 2 ^ 11 := by
    rw [Nat.shiftRight_eq_div_pow]
    have := b.isLt
    omega
  rw [Nat.mod_eq_of_lt hb]
  simp
  omega

/-- `next` delivers the next 11 bits, or `None` when fewer are left. -/
theorem next_spec (it : BitIter) (h : it.Inv) :
    (it.bits.length < 11 ∧ it.next = none) ∨
    (11 ≤ it.bits.length ∧ ∃ v it', it.next = some (v, it') ∧
      v.toNat = natOfBits (it.bits.take 11) ∧ it'.bits = it.bits.drop 11 ∧ it'.Inv) := by
  obtain ⟨hr, hz⟩ := h
  unfold next
  split
  · rename_i hn
    left
    have := fill_none hr hn
    refine ⟨?_, rfl⟩
    simp [bits]; omega
  · rename_i it2 hs
    right
    obtain ⟨e, hi, h11⟩ := fill_spec hr hz hs
    have e' : it2.bits = it.bits := e
    refine ⟨?_, _, _, rfl, ?_, ?_, ?_⟩
    · rw [← e']; simp [bits]; omega
    · rw [top11, ← e', bits]
      congr 1
      rw [List.take_append_of_le_length (by simp; exact h11), ← List.map_take, List.take_range]
      congr 2; omega
    · rw [← e']
      simp only [bits]
      rw [List.drop_append_of_le_length (by simp; exact h11)]
      congr 1
      apply List.ext_getElem
      · simp
      · intro i h1 h2
        simp [BitVec.getMsbD_shiftLeft, Nat.add_comm]
    · refine ⟨by have := hi.1; simp; omega, ?_⟩
      intro i hh
      simp only [BitVec.getMsbD_shiftLeft]
      exact hi.2 _ (by simp at hh; omega)

/-- Everything the iterator yields: the consecutive 11-bit groups of the source. -/
theorem toListFuel_spec (fuel : Nat) (it : BitIter) (h : it.Inv) (hf : it.bits.length ≤ fuel) :
    (toListFuel fuel it).length = it.bits.length / 11 ∧
    ∀ i (hi : i < (toListFuel fuel it).length),
      ((toListFuel fuel it)[i]).toNat = natOfBits (group 11 i it.bits) := by
  induction fuel generalizing it with
  | zero =>
    have : it.bits.length = 0 := by omega
    simp [toListFuel, this]
  | succ fuel ih =>
    rcases next_spec it h with ⟨hl, hn⟩ | ⟨hl, v, it', hn, hv, hb, hi⟩
    · simp [toListFuel, hn]; omega
    · have hlen : it'.bits.length = it.bits.length - 11 := by rw [hb]; simp
      obtain ⟨e1, e2⟩ := ih it' hi (by omega)
      have hcons : toListFuel (fuel + 1) it = v :: toListFuel fuel it' := by
        simp [toListFuel, hn]
      rw [hcons]
      refine ⟨by simp [e1]; omega, ?_⟩
      intro i hlt
      cases i with
      | zero => simp [hv, group]
      | succ i =>
        simp only [List.getElem_cons_succ]
        rw [e2, hb]
        simp [group, List.drop_drop]
        congr 2; rw [show 11 * (i + 1) = 11 + 11 * i by omega]

theorem toList_spec (source : Bytes) :
    (BitIter.new source).toList.length = (8 * source.length) / 11 ∧
    ∀ i (hi : i < (BitIter.new source).toList.length),
      ((BitIter.new source).toList[i]).toNat = natOfBits (group 11 i (bitsOfBytes source)) := by
  have hinv : (BitIter.new source).Inv := by simp [Inv, new]
  have hb : (BitIter.new source).bits = bitsOfBytes source := by simp [bits, new]
  have := toListFuel_spec ((BitIter.new source).source.length * 8 + (BitIter.new source).read)
    (BitIter.new source) hinv (by rw [hb]; simp [new]; omega)
  rw [hb] at this
  simpa [toList] using this

end BitIter

end Kms.Bip39
