import Verif.Spec.Heap
import Verif.Proofs.Mnemonic
import Verif.Proofs.Wipe
/-
The heap model computes what the value model computes, and what the buffers given back hold.
-/
namespace Kms

namespace Heap

theorem mk_ok_bind {ε α β : Type} (a : α) (fr : List Bytes) (f : α → Heap ε β) :
    ((⟨.ok a, fr⟩ : Heap ε α) >>= f) = ⟨(f a).out, fr ++ (f a).freed⟩ := rfl
theorem mk_err_bind {ε α β : Type} (e : ε) (fr : List Bytes) (f : α → Heap ε β) :
    ((⟨.err e, fr⟩ : Heap ε α) >>= f) = ⟨.err e, fr⟩ := rfl
theorem pure_eq {ε α : Type} (a : α) : (pure a : Heap ε α) = ⟨.ok a, []⟩ := rfl
theorem lift_ok {ε α : Type} (a : α) : (lift (.ok a) : Heap ε α) = ⟨.ok a, []⟩ := rfl
theorem ok_nil_bind {ε α β : Type} (a : α) (f : α → Heap ε β) : ((⟨.ok a, []⟩ : Heap ε α) >>= f) = f a := rfl

end Heap

namespace VecMem

theorem bytes_length (v : VecMem) : v.bytes.length = v.len := by
  simp [bytes, v.len_le]

theorem bytes_prefix (v : VecMem) : v.bytes <+: v.cells := List.take_prefix _ _

@[simp] theorem empty_bytes : empty.bytes = [] := rfl
@[simp] theorem withCapacity_bytes (A : Allocator) (n : Nat) : (withCapacity A n).bytes = [] := rfl
theorem withCapacity_cells (A : Allocator) (n : Nat) : (withCapacity A n).cells.length = n := (A.fresh n).2
@[simp] theorem exact_bytes (b : Bytes) : (exact b).bytes = b := by simp [exact, bytes]

theorem moved_bytes (A : Allocator) (v : VecMem) (need : Nat) (h : v.len ≤ need) : (v.moved A need h).bytes = v.bytes := by
  have := bytes_length v
  simp only [moved, bytes] at *
  rw [List.take_append_of_le_length (by omega), List.take_of_length_le (by omega)]

theorem moved_cells (A : Allocator) (v : VecMem) (need : Nat) (h : v.len ≤ need) :
    (v.moved A need h).cells.length = A.grow v.cells.length need := by
  have h1 := bytes_length v
  have h2 := (A.fresh (A.grow v.cells.length need)).2
  have h3 := A.fits v.cells.length need
  simp only [moved, List.length_append, List.length_drop, h1, h2]
  omega

theorem extended_bytes (A : Allocator) (v : VecMem) (need : Nat) : (v.extended A need).bytes = v.bytes := by
  have := v.len_le
  simp only [extended, bytes]
  rw [List.take_append_of_le_length this]

theorem extended_cells (A : Allocator) (v : VecMem) (need : Nat) :
    (v.extended A need).cells.length = max v.cells.length (A.grow v.cells.length need) := by
  have h2 := (A.fresh (A.grow v.cells.length need)).2
  simp only [extended, List.length_append, List.length_drop, h2]
  omega

theorem write_bytes (v : VecMem) (bs : Bytes) (h : v.len + bs.length ≤ v.cells.length) : (v.write bs).bytes = v.bytes ++ bs := by
  have := bytes_length v
  rw [write, dif_pos h]
  simp only [bytes] at *
  rw [List.take_append_of_le_length (by simp [this]), List.take_of_length_le (by simp [this])]

theorem write_cells (v : VecMem) (bs : Bytes) (h : v.len + bs.length ≤ v.cells.length) :
    (v.write bs).cells.length = v.cells.length := by
  have := bytes_length v
  rw [write, dif_pos h]
  simp only [List.length_append, List.length_drop, this]
  omega

/-- What the growth of a vector has left behind: its capacity is at most `2 * w`, or one of the buffers given back starts with
`k` of its bytes, where the capacity is at most `2 * k + 2 * w`. -/
def Trail (w : Nat) (v : VecMem) (fr : List Bytes) : Prop :=
  v.cells.length ≤ 2 * w ∨
  ∃ b ∈ fr, ∃ k, k ≤ v.len ∧ v.bytes.take k <+: b ∧ v.cells.length ≤ 2 * k + 2 * w

/-- A step on a vector: it appends `bs`, gives back some buffers, and leaves its trail if `small`. -/
def Appends {ε : Type} (A : Allocator) (w : Nat) (small : Prop) (v : VecMem) (bs : Bytes) (x : Heap ε VecMem) : Prop :=
  ∃ v' fr', x = ⟨.ok v', fr'⟩ ∧ v'.bytes = v.bytes ++ bs ∧ v.cells.length ≤ v'.cells.length ∧
    ∀ fr, A.Doubles → 4 ≤ w → small → Trail w v fr → Trail w v' (fr ++ fr')

theorem Appends.mono {ε : Type} {A : Allocator} {w : Nat} {s t : Prop} {v : VecMem} {bs : Bytes} {x : Heap ε VecMem}
    (h : Appends A w s v bs x) (hst : t → s) : Appends A w t v bs x := by
  obtain ⟨v', fr', h1, h2, h3, h4⟩ := h
  exact ⟨v', fr', h1, h2, h3, fun fr hd hw ht => h4 fr hd hw (hst ht)⟩

theorem appends_pure {ε : Type} (A : Allocator) (w : Nat) (s : Prop) (v : VecMem) :
    Appends A w s v [] (pure v : Heap ε VecMem) :=
  ⟨v, [], rfl, by simp, Nat.le_refl _, fun fr _ _ _ h => by rwa [List.append_nil]⟩

theorem Appends.bind {ε : Type} {A : Allocator} {w : Nat} {s t : Prop} {v : VecMem} {bs cs : Bytes} {x : Heap ε VecMem}
    {f : VecMem → Heap ε VecMem} (h : Appends A w s v bs x) (hf : ∀ v', Appends A w t v' cs (f v')) :
    Appends A w (s ∧ t) v (bs ++ cs) (x >>= f) := by
  obtain ⟨v', fr', rfl, h2, h3, h4⟩ := h
  obtain ⟨v'', fr'', e, g2, g3, g4⟩ := hf v'
  refine ⟨v'', fr' ++ fr'', by rw [Heap.mk_ok_bind, e], by rw [g2, h2, List.append_assoc], by omega, ?_⟩
  intro fr hd hw hst ht
  rw [← List.append_assoc]
  exact g4 _ hd hw hst.2 (h4 _ hd hw hst.1 ht)

theorem reserve_appends {ε : Type} (A : Allocator) (w : Nat) (v : VecMem) (extra : Nat) :
    Appends A w (extra ≤ w) v [] (v.reserve A extra : Heap ε VecMem) := by
  unfold reserve
  split
  · exact (appends_pure A w _ v)
  split
  · rename_i hin
    refine ⟨_, [], rfl, by rw [extended_bytes, List.append_nil], by rw [extended_cells]; omega, ?_⟩
    intro fr hd
    rw [(hd _ _).2] at hin
    simp at hin
  · rename_i hcap hin
    refine ⟨_, _, rfl, by rw [moved_bytes, List.append_nil], ?_, ?_⟩
    · rw [moved_cells]
      have := A.fits v.cells.length (v.len + extra)
      omega
    · intro fr hd hw hs _
      have hg := (hd v.cells.length (v.len + extra)).1
      by_cases h0 : v.cells = []
      · left
        rw [moved_cells]
        have h1 : v.cells.length = 0 := by rw [h0]; rfl
        have h2 := v.len_le
        omega
      · right
        refine ⟨v.cells, ?_, v.len, Nat.le_refl _, ?_, ?_⟩
        · simp [free, Heap.give, h0]
        · rw [moved_bytes]
          exact (List.take_prefix _ _).trans v.bytes_prefix
        · rw [moved_cells]
          have h2 := v.len_le
          omega

/-- After `reserve` there is room. -/
theorem reserve_room {ε : Type} {A : Allocator} {v v' : VecMem} {extra : Nat} {fr : List Bytes}
    (h : (v.reserve A extra : Heap ε VecMem) = ⟨.ok v', fr⟩) : v'.len + extra ≤ v'.cells.length := by
  unfold reserve at h
  split at h
  · cases h; assumption
  split at h
  · cases h
    have := A.fits v.cells.length (v.len + extra)
    rw [extended_cells]
    show v.len + extra ≤ _
    omega
  · cases h
    have := A.fits v.cells.length (v.len + extra)
    rw [moved_cells]
    exact this

theorem append_appends {ε : Type} (A : Allocator) (w : Nat) (v : VecMem) (bs : Bytes) :
    Appends A w (bs.length ≤ w) v bs (v.append A bs : Heap ε VecMem) := by
  obtain ⟨v', fr', h1, h2, h3, h4⟩ := reserve_appends (ε := ε) A w v bs.length
  have hr := reserve_room h1
  have hl : v'.len = v.len := by rw [← bytes_length, h2, List.append_nil, bytes_length]
  refine ⟨v'.write bs, fr', ?_, ?_, by rw [write_cells _ _ hr]; exact h3, ?_⟩
  · rw [append, h1]
    simp [Heap.mk_ok_bind, Heap.pure_eq]
  · rw [write_bytes _ _ hr, h2, List.append_nil]
  · intro fr hd hw hs ht
    rcases h4 fr hd hw hs ht with h | ⟨b, hb, k, hk, hp, hc⟩
    · exact .inl (by rw [write_cells _ _ hr]; exact h)
    · refine .inr ⟨b, hb, k, ?_, ?_, by rw [write_cells _ _ hr]; exact hc⟩
      · rw [← bytes_length, write_bytes _ _ hr, List.length_append, bytes_length]; omega
      · rw [write_bytes _ _ hr, List.take_append_of_le_length (by rw [bytes_length]; exact hk)]
        exact hp

theorem appendEach_appends {ε : Type} (A : Allocator) (w : Nat) (bss : List Bytes) (v : VecMem) :
    Appends A w (∀ bs ∈ bss, bs.length ≤ w) v bss.flatten (v.appendEach A bss : Heap ε VecMem) := by
  induction bss generalizing v with
  | nil => exact appends_pure A w _ v
  | cons bs rest ih =>
    rw [appendEach, List.flatten_cons]
    exact ((append_appends A w v bs).bind ih).mono (fun h => ⟨h bs (by simp), fun b hb => h b (by simp [hb])⟩)

/-- Where there is room, nothing is given back. -/
theorem append_fits {ε : Type} (A : Allocator) (v : VecMem) (bs : Bytes) (h : v.len + bs.length ≤ v.cells.length) :
    (v.append A bs : Heap ε VecMem) = ⟨.ok (v.write bs), []⟩ := by
  rw [append, reserve, if_pos h]
  rfl

theorem appendEach_fits {ε : Type} (A : Allocator) (bss : List Bytes) (v : VecMem)
    (h : v.len + bss.flatten.length ≤ v.cells.length) :
    ∃ v', (v.appendEach A bss : Heap ε VecMem) = ⟨.ok v', []⟩ ∧ v'.bytes = v.bytes ++ bss.flatten := by
  induction bss generalizing v with
  | nil => exact ⟨v, rfl, by simp⟩
  | cons bs rest ih =>
    rw [List.flatten_cons, List.length_append] at h
    have hb : v.len + bs.length ≤ v.cells.length := by omega
    have hl : (v.write bs).len = v.len + bs.length := by rw [← bytes_length, write_bytes _ _ hb, List.length_append, bytes_length]
    obtain ⟨v', e, hv⟩ := ih (v.write bs) (by rw [write_cells _ _ hb, hl]; omega)
    refine ⟨v', ?_, by rw [hv, write_bytes _ _ hb, List.flatten_cons, List.append_assoc]⟩
    rw [appendEach, append_fits A v bs hb, Heap.ok_nil_bind, e]

end VecMem

namespace Bip39
open VecMem Spec

theorem charBytes_flatten (s : Str) : (charBytes s).flatten = utf8 s := by
  simp [charBytes, utf8, List.flatMap_def]

theorem charBytes_small (s : Str) : ∀ bs ∈ charBytes s, bs.length ≤ 4 := by
  intro bs h
  obtain ⟨c, _, rfl⟩ := List.mem_map.mp h
  rw [String.length_utf8EncodeChar]
  exact Char.utf8Size_le_four c

theorem utf8_append (a b : Str) : utf8 (a ++ b) = utf8 a ++ utf8 b := by simp [utf8]

theorem extendNfkd_appends {ε : Type} (A : Allocator) (w : Nat) (v : VecMem) (word : Str) :
    Appends A w ((utf8 word).length ≤ 4 * w ∧ 4 ≤ w) v (utf8 (nfkd word)) (extendNfkd A v word : Heap ε VecMem) := by
  have h := (reserve_appends (ε := ε) A w v (((utf8 word).length + 3) / 4)).bind
    (fun v' => appendEach_appends A w (charBytes (nfkd word)) v')
  rw [charBytes_flatten, List.nil_append] at h
  exact h.mono (fun hs => ⟨by omega, fun bs hb => (charBytes_small _ bs hb).trans hs.2⟩)

/-- The words after the first. -/
def glued (ws : List Str) : Str := ws.flatMap (fun w => ' ' :: w)

theorem utf8_glued_cons (a : Str) (ws : List Str) : utf8 (glued (a :: ws)) = utf8 [' '] ++ (utf8 a ++ utf8 (glued ws)) := by
  simp [glued, utf8]

theorem joinRestNfkd_appends {ε : Type} (A : Allocator) (w : Nat) (ws : List Str) (v : VecMem) :
    Appends A w (∀ word ∈ ws, (utf8 word).length ≤ 4 * w ∧ 4 ≤ w) v (utf8 (glued (ws.map nfkd)))
      (joinRestNfkd A v ws : Heap ε VecMem) := by
  induction ws generalizing v with
  | nil => exact appends_pure A w _ v
  | cons a rest ih =>
    have h := (append_appends (ε := ε) A w v (utf8 [' '])).bind
      (fun v' => (extendNfkd_appends A w v' a).bind (fun v'' => ih v''))
    have e : utf8 (glued ((a :: rest).map nfkd)) = utf8 [' '] ++ (utf8 (nfkd a) ++ utf8 (glued (rest.map nfkd))) := by
      rw [List.map_cons, utf8_glued_cons]
    rw [e]
    refine h.mono (fun hs => ⟨?_, hs a (by simp), fun b hb => hs b (by simp [hb])⟩)
    have := (hs a (by simp)).2
    have h1 : (utf8 [' ']).length = 1 := by decide
    omega

theorem join_eq_glued (a : Str) (ws : List Str) : join [' '] (a :: ws) = a ++ glued ws := by
  induction ws generalizing a with
  | nil => simp [glued]
  | cons b r ih =>
    rw [join_cons_cons, ih]
    simp [glued]

theorem joinNfkdMem_spec {ε : Type} (A : Allocator) (ws : List Str) :
    ∃ v fr, (joinNfkdMem A ws : Heap ε VecMem) = ⟨.ok v, fr⟩ ∧ v.bytes = utf8 (join [' '] (ws.map nfkd)) ∧
      ∀ w, A.Doubles → 4 ≤ w → (∀ word ∈ ws, (utf8 word).length ≤ 4 * w) → Trail w v fr := by
  cases ws with
  | nil => exact ⟨.empty, [], rfl, rfl, fun w _ _ _ => .inl (by simp [VecMem.empty])⟩
  | cons a rest =>
    have h := fun w => (extendNfkd_appends (ε := ε) A w (VecMem.withCapacity A (0 * (10 + 1))) a).bind
      (fun v' => joinRestNfkd_appends A w rest v')
    obtain ⟨v, fr, h1, h2, -, -⟩ := h 0
    refine ⟨v, fr, h1, ?_, ?_⟩
    · rw [h2, List.map_cons, join_eq_glued, utf8_append]
      rfl
    · intro w hd hw hs
      obtain ⟨v', fr', h1', -, -, h4⟩ := h w
      rw [h1] at h1'
      cases h1'
      exact h4 [] hd hw ⟨⟨hs a (by simp), hw⟩, fun b hb => ⟨hs b (by simp [hb]), hw⟩⟩
        (.inl (by rw [withCapacity_cells]; omega))

/-! ### the phrase of `from_entropy` -/

theorem BitIter.toListFuel_eq (f g : Nat) (it : BitIter) (h : it.Inv) (hf : it.bits.length ≤ f) (hg : it.bits.length ≤ g) :
    toListFuel f it = toListFuel g it := by
  obtain ⟨f1, f2⟩ := toListFuel_spec f it h hf
  obtain ⟨g1, g2⟩ := toListFuel_spec g it h hg
  apply List.ext_getElem (by rw [f1, g1])
  intro i h1 h2
  apply BitVec.eq_of_toNat_eq
  rw [f2 i h1, g2 i h2]

theorem first_word (b0 b1 : UInt8) (rest : Bytes) :
    ∃ v it', (BitIter.new (b0 :: b1 :: rest)).next = some (v, it') ∧ it'.source = rest ∧
      (BitIter.new (b0 :: b1 :: rest)).toList = v :: it'.toList := by
  have hinv : (BitIter.new (b0 :: b1 :: rest)).Inv := by simp [BitIter.Inv, BitIter.new]
  have hsrc : ∀ v it', (BitIter.new (b0 :: b1 :: rest)).next = some (v, it') → it'.source = rest := by
    intro v it' h
    unfold BitIter.next BitIter.new at h
    cases rest <;> simp [BitIter.fill] at h <;> rw [← h.2]
  rcases BitIter.next_spec _ hinv with ⟨hl, _⟩ | ⟨hl, v, it', hn, -, hb, hi⟩
  · simp [BitIter.bits, BitIter.new] at hl
    omega
  · refine ⟨v, it', hn, hsrc v it' hn, ?_⟩
    have hlen : it'.bits.length = (BitIter.new (b0 :: b1 :: rest)).bits.length - 11 := by rw [hb]; simp
    have hbits : (BitIter.new (b0 :: b1 :: rest)).bits.length = (rest.length + 2) * 8 := by simp [BitIter.bits, BitIter.new]; omega
    have hfuel : (BitIter.new (b0 :: b1 :: rest)).source.length * 8 + (BitIter.new (b0 :: b1 :: rest)).read =
        (rest.length * 8 + 15) + 1 := by simp [BitIter.new]; omega
    rw [BitIter.toList, hfuel, BitIter.toListFuel, hn]
    simp only [BitIter.toList]
    rw [BitIter.toListFuel_eq _ _ it' hi]
    · omega
    · simp [BitIter.bits]; omega

theorem english_utf8_length : (Data.english.all fun w => (utf8 w).length ≤ 8) = true := by decide +kernel
theorem chinese_utf8_length : (Data.chineseSimplified.all fun w => (utf8 w).length ≤ 8) = true := by decide +kernel

theorem word_utf8_length (l : Language) : ∀ w ∈ l.wordlist, (utf8 w).length ≤ 8 := by
  intro w hw
  cases l with
  | english =>
    rw [wordlist_english] at hw
    simpa using List.all_eq_true.mp english_utf8_length w hw
  | chineseSimplified =>
    rw [wordlist_chinese] at hw
    simpa using List.all_eq_true.mp chinese_utf8_length w hw

theorem glued_flatten (ws : List Str) : (ws.flatMap (fun w => [utf8 [' '], utf8 w])).flatten = utf8 (glued ws) := by
  induction ws with
  | nil => rfl
  | cons a r ih =>
    rw [List.flatMap_cons, List.flatten_append, ih]
    simp only [glued, List.flatMap_cons]
    rw [utf8_append, List.append_cancel_right_eq]
    simp [utf8]

theorem glued_length (ws : List Str) (h : ∀ w ∈ ws, (utf8 w).length ≤ 8) : (utf8 (glued ws)).length ≤ 9 * ws.length := by
  induction ws with
  | nil => simp [glued, utf8]
  | cons a r ih =>
    have h1 := ih (fun w hw => h w (by simp [hw]))
    have h2 := h a (by simp)
    have h3 : (utf8 [' ']).length = 1 := by decide
    rw [utf8_glued_cons, List.length_append, List.length_append, List.length_cons, h3]
    omega

/-- The capacity that `join` asks for always suffices. -/
theorem joinBitsMem_spec (A : Allocator) (l : Language) (src : Bytes) (h : 17 ≤ src.length) :
    ∃ v ws, joinBitsMem A l.wordlist (BitIter.new src) = ⟨.ok v, []⟩ ∧
      getWords l.wordlist (BitIter.new src).toList = .ok ws ∧ v.bytes = utf8 (join [' '] ws) := by
  match src, h with
  | b0 :: b1 :: rest, h =>
    obtain ⟨v, it', hn, hs, ht⟩ := first_word b0 b1 rest
    obtain ⟨ws, hws, hat⟩ := getWords_spec l (BitIter.new (b0 :: b1 :: rest)).toList (toList_lt _)
    have hlen : ws.length = 8 * (rest.length + 2) / 11 := by
      rw [wordsAt_length hat, List.length_map, (BitIter.toList_spec _).1]
      simp
    have hmem := wordsAt_mem hat
    have hws0 := hws
    rw [ht] at hws0
    simp only [getWords] at hws0
    cases hf : Language.getWord l.wordlist v with
    | ok first =>
      cases hr : getWords l.wordlist it'.toList with
      | ok rw' =>
        rw [hf, hr] at hws0
        simp at hws0
        subst hws0
        have hb := glued_length rw' (fun w hw => word_utf8_length l w (hmem w (by simp [hw])))
        have hfirst := word_utf8_length l first (hmem first (by simp))
        simp only [List.length_cons] at hlen h
        have hroom : (utf8 first).length + (utf8 (glued rw')).length ≤ rest.length * 8 / 11 * (10 + 1) := by omega
        have hc := withCapacity_cells A (rest.length * 8 / 11 * (10 + 1))
        have h1 : (VecMem.withCapacity A (rest.length * 8 / 11 * (10 + 1))).len + (utf8 first).length ≤
            (VecMem.withCapacity A (rest.length * 8 / 11 * (10 + 1))).cells.length := by
          rw [hc]
          show 0 + _ ≤ _
          omega
        have hl : ((VecMem.withCapacity A (rest.length * 8 / 11 * (10 + 1))).write (utf8 first)).len = (utf8 first).length := by
          rw [← bytes_length, write_bytes _ _ h1]
          simp
        obtain ⟨v', e, hv⟩ := appendEach_fits (ε := ErrorKind) A (rw'.flatMap (fun w => [utf8 [' '], utf8 w]))
          ((VecMem.withCapacity A (rest.length * 8 / 11 * (10 + 1))).write (utf8 first))
          (by rw [write_cells _ _ h1, hc, glued_flatten, hl]; exact hroom)
        refine ⟨v', _, ?_, hws, ?_⟩
        · rw [joinBitsMem, hn]
          simp only
          rw [hf, hr, hs, Heap.lift_ok, Heap.ok_nil_bind, append_fits _ _ _ h1, Heap.ok_nil_bind, Heap.lift_ok,
            Heap.ok_nil_bind, e]
        · rw [hv, write_bytes _ _ h1, glued_flatten, join_eq_glued, utf8_append]
          rfl
      | err e => rw [hf, hr] at hws0; simp at hws0
      | panic => rw [hf, hr] at hws0; simp at hws0
    | err e => rw [hf] at hws0; simp at hws0
    | panic => rw [hf] at hws0; simp at hws0

/-! ### the bit writer of `phrase_to_entropy` -/

theorem flush_inner (o : Nat) (r : BitVec 32) (inner : Bytes) : inner <+: (BitWriter.flush o r inner).inner := by
  induction o using Nat.strongRecOn generalizing r inner with
  | ind o ih =>
    by_cases h : 8 ≤ o
    · obtain ⟨k, rfl⟩ : ∃ k, o = k + 8 := ⟨o - 8, by omega⟩
      rw [BitWriter.flush]
      exact (List.prefix_append _ _).trans (ih k (by omega) _ _)
    · have : BitWriter.flush o r inner = { offset := o, remainder := r, inner } := by
        rw [BitWriter.flush]
        intro k hk; omega
      rw [this]
      exact List.prefix_rfl

theorem push_inner (w : BitWriter) (b : Bits11) : (w.push b).inner = w.inner ++ (w.push b).inner.drop w.inner.length := by
  obtain ⟨t, ht⟩ : w.inner <+: (w.push b).inner := flush_inner _ _ _
  rw [← ht]
  simp

theorem singles_flatten (bs : Bytes) : (bs.map ([·])).flatten = bs := by
  induction bs with
  | nil => rfl
  | cons b r ih => rw [List.map_cons, List.flatten_cons, ih]; rfl

theorem prefix_push {ε : Type} (A : Allocator) (w : BitWriter) (b : Bits11) (mem : VecMem) (h : mem.bytes = w.inner) :
    ∃ mem' fr, (mem.appendEach A (((w.push b).inner.drop w.inner.length).map ([·])) : Heap ε VecMem) = ⟨.ok mem', fr⟩ ∧
      mem'.bytes = (w.push b).inner := by
  obtain ⟨mem', fr, h1, h2, -, -⟩ := appendEach_appends (ε := ε) A 0 (((w.push b).inner.drop w.inner.length).map ([·])) mem
  refine ⟨mem', fr, h1, ?_⟩
  rw [h2, singles_flatten, h, ← push_inner]

namespace Mnemonic

theorem pushWordsMem_ok (A : Allocator) (m : WordMap) (ws : List Str) (w w' : BitWriter) (mem : VecMem)
    (h : mem.bytes = w.inner) (hp : pushWords m ws w = .ok w') :
    ∃ mem' fr, pushWordsMem A m ws w mem = ⟨.ok (w', mem'), fr⟩ ∧ mem'.bytes = w'.inner := by
  induction ws generalizing w mem with
  | nil =>
    cases hp
    exact ⟨mem, [], rfl, h⟩
  | cons a rest ih =>
    rw [pushWords] at hp
    cases hb : Language.getBits m a with
    | ok b =>
      rw [hb] at hp
      obtain ⟨mem1, fr1, e1, h1⟩ := prefix_push (ε := ErrorKind) A w b mem h
      obtain ⟨mem2, fr2, e2, h2⟩ := ih (w.push b) mem1 h1 hp
      refine ⟨mem2, fr1 ++ fr2, ?_, h2⟩
      rw [pushWordsMem, hb]
      simp only
      rw [e1, Heap.mk_ok_bind, e2]
    | err e => rw [hb] at hp; simp at hp
    | panic => rw [hb] at hp; simp at hp

theorem pushWordsMem_err (A : Allocator) (m : WordMap) (known rest : List Str) (bad : Str) (e : ErrorKind) (w w' : BitWriter)
    (mem : VecMem) (h : mem.bytes = w.inner) (hp : pushWords m known w = .ok w') (hb : Language.getBits m bad = .err e) :
    ∃ fr, pushWordsMem A m (known ++ bad :: rest) w mem = ⟨.err e, fr⟩ ∧ (w'.inner ≠ [] → ∃ b ∈ fr, w'.inner <+: b) := by
  induction known generalizing w mem with
  | nil =>
    cases hp
    refine ⟨_, by rw [List.nil_append, pushWordsMem, hb]; rfl, ?_⟩
    intro hne
    have hc : mem.cells ≠ [] := by
      intro h0
      rw [← h, VecMem.bytes, h0] at hne
      simp at hne
    refine ⟨mem.cells, by simp [VecMem.free, Heap.give, hc, Heap.lift], ?_⟩
    rw [← h]
    exact mem.bytes_prefix
  | cons a known ih =>
    rw [pushWords] at hp
    cases ha : Language.getBits m a with
    | ok b =>
      rw [ha] at hp
      obtain ⟨mem1, fr1, e1, h1⟩ := prefix_push (ε := ErrorKind) A w b mem h
      obtain ⟨fr2, e2, h2⟩ := ih (w.push b) mem1 h1 hp
      refine ⟨fr1 ++ fr2, ?_, ?_⟩
      · rw [List.cons_append, pushWordsMem, ha]
        simp only
        rw [e1, Heap.mk_ok_bind, e2]
      · intro hne
        obtain ⟨b', hb', hp'⟩ := h2 hne
        exact ⟨b', List.mem_append_right _ hb', hp'⟩
    | err e => rw [ha] at hp; simp at hp
    | panic => rw [ha] at hp; simp at hp

theorem pushWords_split (m : WordMap) (ws : List Str) (w : BitWriter) (e : ErrorKind) (h : pushWords m ws w = .err e) :
    ∃ known bad rest w', ws = known ++ bad :: rest ∧ pushWords m known w = .ok w' ∧ Language.getBits m bad = .err e := by
  induction ws generalizing w with
  | nil => simp [pushWords] at h
  | cons a rest ih =>
    rw [pushWords] at h
    cases ha : Language.getBits m a with
    | ok b =>
      rw [ha] at h
      obtain ⟨known, bad, r, w', h1, h2, h3⟩ := ih _ h
      exact ⟨a :: known, bad, r, w', by rw [h1]; rfl, by rw [pushWords, ha]; exact h2, h3⟩
    | err e' =>
      rw [ha] at h
      simp at h
      subst h
      exact ⟨[], a, rest, w, rfl, rfl, ha⟩
    | panic => rw [ha] at h; simp at h

theorem truncate_bytes (v : VecMem) (n : Nat) : (v.truncate n).bytes = v.bytes.take n := by
  simp [VecMem.truncate, VecMem.bytes, List.take_take]

/-- The bytes of the bit writer after `into_bytes`. -/
theorem intoBytes_mem (A : Allocator) (w : BitWriter) (mem : VecMem) (h : mem.bytes = w.inner) :
    ∃ mem' fr, intoBytesMem A w mem = ⟨.ok mem', fr⟩ ∧ mem'.bytes = w.intoBytes := by
  unfold intoBytesMem
  by_cases h0 : w.offset ≠ 0
  · rw [if_pos h0]
    obtain ⟨mem', fr, h1, h2, -, -⟩ := append_appends (ε := ErrorKind) A 0 mem (w.intoBytes.drop w.inner.length)
    refine ⟨mem', fr, h1, ?_⟩
    rw [h2, h, BitWriter.intoBytes, if_pos h0]
    simp
  · rw [if_neg h0]
    exact ⟨mem, [], rfl, by rw [h, BitWriter.intoBytes, if_neg h0]⟩

theorem inner_prefix (w : BitWriter) : w.inner <+: w.intoBytes := by
  unfold BitWriter.intoBytes
  split
  · exact List.prefix_append _ _
  · exact List.prefix_rfl

/-- Words of the list only: the outcome is that of the value model, and the bits of the words are in the buffer returned, or, if
there is none, in a buffer given back. -/
theorem phraseToEntropyMem_known (A : Allocator) (H : Hashes) (p : Str) (l : Language) (w : BitWriter)
    (hp : pushWords l.wordmap (splitChar ' ' p) BitWriter.withCapacity = .ok w) (hne : w.inner ≠ []) :
    (∃ e mem fr, phraseToEntropy H p l = .ok e ∧ phraseToEntropyMem A H p l = ⟨.ok mem, fr⟩ ∧ mem.bytes = e ∧
      w.inner <+: mem.cells) ∨
    (∃ e fr, phraseToEntropy H p l = .err e ∧ phraseToEntropyMem A H p l = ⟨.err e, fr⟩ ∧ ∃ b ∈ fr, w.inner <+: b) ∨
    phraseToEntropy H p l = .panic := by
  obtain ⟨mem1, fr1, e1, h1⟩ := pushWordsMem_ok A l.wordmap (splitChar ' ' p) BitWriter.withCapacity w
    (VecMem.withCapacity A (264 / 8)) rfl hp
  have hc1 : mem1.cells ≠ [] := by
    intro h0
    rw [← h1, VecMem.bytes, h0] at hne
    simp at hne
  obtain ⟨mem2, fr2, e2, h2⟩ := intoBytes_mem A w mem1 h1
  have hpre2 : w.inner <+: mem2.cells := (inner_prefix w).trans (h2 ▸ mem2.bytes_prefix)
  have hc2 : mem2.cells ≠ [] := by
    intro h0
    rw [h0] at hpre2
    exact hne (List.prefix_nil.mp hpre2)
  unfold phraseToEntropy phraseToEntropyMem
  rw [hp, e1]
  simp only [Res.ok_bind, Heap.mk_ok_bind]
  cases ht : MnemonicType.forWordCount (w.len / 11) with
  | err e =>
    refine .inr (.inl ⟨e, _, rfl, rfl, mem1.cells, ?_, h1 ▸ mem1.bytes_prefix⟩)
    simp [VecMem.free, Heap.give, hc1, Heap.mk_ok_bind]
  | panic => exact .inr (.inr rfl)
  | ok t =>
    simp only [Res.ok_bind]
    by_cases hl : w.len ≠ t.totalBits
    · rw [if_pos hl]
      exact .inr (.inr rfl)
    rw [if_neg hl, if_neg hl, e2]
    simp only [Heap.mk_ok_bind, h2]
    cases hi : index w.intoBytes (t.entropyBits / 8) with
    | err e => simp [index] at hi; split at hi <;> simp at hi
    | panic => exact .inr (.inr rfl)
    | ok last =>
      simp only [Res.ok_bind, Heap.lift_ok, Heap.ok_nil_bind]
      cases hc : checksum' last t.checksumBits with
      | err e => simp [checksum'] at hc; split at hc <;> simp at hc
      | panic => exact .inr (.inr rfl)
      | ok v1 =>
        simp only [Res.ok_bind, Heap.lift_ok, Heap.ok_nil_bind, truncate_bytes, h2]
        cases hc' : checksum' (H.sha256FirstByte (w.intoBytes.take (t.entropyBits / 8))) t.checksumBits with
        | err e => simp [checksum'] at hc'; split at hc' <;> simp at hc'
        | panic => exact .inr (.inr rfl)
        | ok v2 =>
          simp only [Res.ok_bind, Heap.lift_ok, Heap.ok_nil_bind]
          by_cases hv : v1 ≠ v2
          · rw [if_pos hv, if_pos hv]
            refine .inr (.inl ⟨_, _, rfl, rfl, mem2.cells, ?_, hpre2⟩)
            simp [VecMem.free, VecMem.truncate, Heap.give, hc2, Heap.mk_ok_bind]
          · rw [if_neg hv, if_neg hv]
            exact .inl ⟨_, _, _, rfl, rfl, by rw [truncate_bytes, h2], hpre2⟩

/-- An unknown word: the bits of the words before it are in a buffer given back. -/
theorem phraseToEntropyMem_unknown (A : Allocator) (H : Hashes) (p : Str) (l : Language) (known rest : List Str) (bad : Str)
    (w : BitWriter) (hs : splitChar ' ' p = known ++ bad :: rest)
    (hp : pushWords l.wordmap known BitWriter.withCapacity = .ok w) (hb : bad ∉ l.wordlist) :
    ∃ fr, phraseToEntropy H p l = .err .invalidWord ∧ phraseToEntropyMem A H p l = ⟨.err .invalidWord, fr⟩ ∧
      (w.inner ≠ [] → ∃ b ∈ fr, w.inner <+: b) := by
  have hbad : Language.getBits l.wordmap bad = .err .invalidWord := by
    cases hg : Language.getBits l.wordmap bad with
    | ok v => exact absurd ((getBits_isOk_iff l bad).mp (by rw [hg]; rfl)) hb
    | err e => unfold Language.getBits at hg; split at hg <;> simp at hg; rw [← hg]
    | panic => unfold Language.getBits at hg; split at hg <;> simp at hg
  obtain ⟨fr, e, h⟩ := pushWordsMem_err A l.wordmap known rest bad _ _ w (VecMem.withCapacity A (264 / 8)) rfl hp hbad
  refine ⟨fr, phraseToEntropy_badWord H p l ⟨bad, by rw [hs]; simp, hb⟩, ?_, h⟩
  unfold phraseToEntropyMem
  rw [hs, e, Heap.mk_err_bind]

/-- The bytes written so far: 11 bits for each word. -/
theorem inner_of_words (l : Language) (ws : List Str) (idx : List Nat) (h : WordsAt l.wordlist ws idx) :
    ∃ w, pushWords l.wordmap ws BitWriter.withCapacity = .ok w ∧ w.inner.length = 11 * ws.length / 8 ∧
      bitsOfBytes w.inner <+: idx.flatMap (bitsOfNat 11) := by
  obtain ⟨w, h1, h2, h3⟩ := pushWords_ok l ws idx h _ BitWriter.inv_withCapacity
  rw [BitWriter.bits_withCapacity, List.nil_append] at h3
  refine ⟨w, h1, ?_, ?_⟩
  · have hl := congrArg List.length h3
    rw [flatMap_bits_length, ← wordsAt_length h] at hl
    have := h2.1
    simp [BitWriter.bits] at hl
    omega
  · rw [← h3, BitWriter.bits]
    exact List.prefix_append _ _

theorem phraseToEntropy_no_panic (H : Hashes) (p : Str) (l : Language) : phraseToEntropy H p l ≠ .panic := by
  by_cases hw : ∀ w ∈ splitChar ' ' p, w ∈ l.wordlist
  · by_cases hn : (splitChar ' ' p).length ∈ sizes
    · obtain ⟨idx, hi⟩ := wordsAt_exists l _ hw
      obtain ⟨e, -, -, h⟩ := phraseToEntropy_words H p l idx hi (by rwa [← wordsAt_length hi])
      rw [h]
      split <;> simp
    · rw [phraseToEntropy_badLength H p l hw hn]
      simp
  · rw [phraseToEntropy_badWord H p l (by push Not at hw; exact hw)]
    simp

/-- The words before the first unknown one. -/
theorem known_split (l : Language) (ws : List Str) :
    ∃ known rest, ws = known ++ rest ∧ (∀ w ∈ known, w ∈ l.wordlist) ∧ (rest = [] ∨ ∃ bad r, rest = bad :: r ∧ bad ∉ l.wordlist) := by
  induction ws with
  | nil => exact ⟨[], [], rfl, by simp, .inl rfl⟩
  | cons a ws ih =>
    by_cases ha : a ∈ l.wordlist
    · obtain ⟨k, r, h1, h2, h3⟩ := ih
      refine ⟨a :: k, r, by rw [h1]; rfl, ?_, h3⟩
      intro w hw
      rcases List.mem_cons.mp hw with rfl | hw
      · exact ha
      · exact h2 w hw
    · exact ⟨[], a :: ws, rfl, by simp, .inr ⟨a, ws, rfl, ha⟩⟩

/-- Both models give the same outcome. -/
theorem phraseToEntropyMem_out (A : Allocator) (H : Hashes) (p : Str) (l : Language) :
    (∃ e mem, phraseToEntropy H p l = .ok e ∧ (phraseToEntropyMem A H p l).out = .ok mem ∧ mem.bytes = e) ∨
    (∃ e, phraseToEntropy H p l = .err e ∧ (phraseToEntropyMem A H p l).out = .err e) := by
  obtain ⟨known, rest, hs, hk, hr⟩ := known_split l (splitChar ' ' p)
  obtain ⟨idx, hi⟩ := wordsAt_exists l _ hk
  obtain ⟨w, h1, h2, -⟩ := inner_of_words l known idx hi
  rcases hr with rfl | ⟨bad, r, rfl, hb⟩
  · rw [List.append_nil] at hs
    have hne : w.inner ≠ [] := by
      intro h0
      have h3 : known ≠ [] := by rw [← hs]; exact splitChar_ne_nil _ _
      have h4 := List.length_pos_iff.mpr h3
      rw [h0] at h2
      simp at h2
      omega
    rw [← hs] at h1
    rcases phraseToEntropyMem_known A H p l w h1 hne with ⟨e, mem, fr, a, b, c, -⟩ | ⟨e, fr, a, b, -⟩ | h
    · exact .inl ⟨e, mem, a, by rw [b], c⟩
    · exact .inr ⟨e, a, by rw [b]⟩
    · exact absurd h (phraseToEntropy_no_panic H p l)
  · obtain ⟨fr, a, b, -⟩ := phraseToEntropyMem_unknown A H p l known r bad w hs h1 hb
    exact .inr ⟨_, a, by rw [b]⟩

end Mnemonic
end Bip39
end Kms
