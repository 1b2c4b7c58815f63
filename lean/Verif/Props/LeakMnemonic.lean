import Verif.Model.LeakMnemonic
import Verif.Spec.LeakMnemonic
import Verif.Props.Phrase
import Verif.Props.Derivation
/-
C119: what making and validating mnemonics shows to someone who sees branches and memory accesses.
-/
namespace Kms.Props
open Kms.Bip39 Kms.Spec

/-! ### the bit iterator -/

/-- What the loop of `next` shows, the number of bytes left after it, and of bits read. -/
def fillShape (total : Nat) : Nat → Nat → List Ev × Nat × Nat
  | 0, read => if read < 11 then ([.branch true, .branch false], 0, read) else ([.branch false], 0, read)
  | k + 1, read =>
    if read < 11 then
      let r := fillShape total k (read + 8)
      ([.branch true, .load "entropy" (total - (k + 1)), .branch true] ++ r.1, r.2)
    else ([.branch false], k + 1, read)

theorem fillSeen_eq (total : Nat) (src : Bytes) (read : Nat) (buf : BitVec 64) :
    BitIter.fillSeen total src read buf = (BitIter.fill src read buf, (fillShape total src.length read).1) ∧
    ∀ it, BitIter.fill src read buf = some it →
      it.source.length = (fillShape total src.length read).2.1 ∧ it.read = (fillShape total src.length read).2.2 := by
  induction src generalizing read buf with
  | nil =>
    by_cases h : read < 11
    · simp [BitIter.fillSeen, BitIter.fill, fillShape, h]
    · simp [BitIter.fillSeen, BitIter.fill, fillShape, h]
  | cons b rest ih =>
    by_cases h : read < 11
    · simp only [BitIter.fillSeen, BitIter.fill, fillShape, h, if_true, List.length_cons]
      obtain ⟨h1, h2⟩ := ih (read + 8) (buf ||| ((b.toBitVec.setWidth 64) <<< (64 - (read + 8))))
      exact ⟨by rw [h1], h2⟩
    · simp only [BitIter.fillSeen, BitIter.fill, fillShape, h, if_false, List.length_cons]
      refine ⟨trivial, ?_⟩
      intro it hit
      cases hit
      exact ⟨rfl, rfl⟩

theorem nextSeen_eq (total : Nat) (it : BitIter) :
    it.nextSeen total = (it.next, (fillShape total it.source.length it.read).1) ∧
    ∀ b it', it.next = some (b, it') →
      it'.source.length = (fillShape total it.source.length it.read).2.1 ∧
      it'.read = (fillShape total it.source.length it.read).2.2 - 11 := by
  obtain ⟨h1, h2⟩ := fillSeen_eq total it.source it.read it.buffer
  constructor
  · simp only [BitIter.nextSeen, h1, BitIter.next]
    cases BitIter.fill it.source it.read it.buffer <;> rfl
  · intro b it' h
    unfold BitIter.next at h
    cases hf : BitIter.fill it.source it.read it.buffer with
    | none => rw [hf] at h; simp at h
    | some i =>
      rw [hf] at h
      simp only [Option.some.injEq, Prod.mk.injEq] at h
      obtain ⟨h3, h4⟩ := h2 i hf
      rw [← h.2]
      exact ⟨h3, by simp only [h4]⟩

/-! ### the words -/

/-- What the words with these numbers show, with `k` bytes left of the source, `read` bits read, and `len` bytes of the
phrase written. -/
def restView (total : Nat) (wl : WordList) : Nat → Nat → Nat → Nat → List Bits11 → List Ev
  | 0, _, _, _, _ => []
  | _ + 1, k, read, _, [] => (fillShape total k read).1
  | calls + 1, k, read, len, b :: bs =>
    (fillShape total k read).1 ++ ([.branch true, .load "wordlist" b.toNat] ++
      ((phraseStores len 1 ++ phraseStores (len + 1) (utf8 (wl[b.toNat]?.getD [])).length) ++
        restView total wl calls (fillShape total k read).2.1 ((fillShape total k read).2.2 - 11)
          (len + 1 + (utf8 (wl[b.toNat]?.getD [])).length) bs))

theorem getWordSeen_ok {wl : WordList} {b : Bits11} {w : Str} (h : wl[b.toNat]? = some w) :
    getWordSeen wl b = ⟨.ok w, [.branch true, .load "wordlist" b.toNat]⟩ := by simp [getWordSeen, h]

theorem utf8_append_length (a b : Str) : (utf8 (a ++ b)).length = (utf8 a).length + (utf8 b).length := by
  simp [utf8, List.flatMap_append]

theorem joinRestSeen_eq (total : Nat) (wl : WordList) (calls : Nat) (it : BitIter) (buffer : Str) (ws : List Str)
    (h : getWords wl (it.toListFuel calls) = .ok ws) :
    joinRestSeen total wl calls it buffer = ⟨.ok (ws.foldl (fun b w => (b ++ [' ']) ++ w) buffer),
      restView total wl calls it.source.length it.read (utf8 buffer).length (it.toListFuel calls)⟩ := by
  induction calls generalizing it buffer ws with
  | zero =>
    simp only [BitIter.toListFuel, getWords] at h
    cases h
    rfl
  | succ calls ih =>
    obtain ⟨h1, h2⟩ := nextSeen_eq total it
    rw [joinRestSeen, h1]
    cases hn : it.next with
    | none =>
      rw [BitIter.toListFuel, hn] at h
      simp only [getWords] at h
      cases h
      simp [BitIter.toListFuel, hn, restView, bind, Seen.bind, Seen.emit, pure]
    | some p =>
      obtain ⟨b, it'⟩ := p
      rw [BitIter.toListFuel, hn] at h
      simp only [getWords] at h
      cases hw : wl[b.toNat]? with
      | none => simp [Language.getWord, hw] at h
      | some w =>
        simp only [Language.getWord, hw, Res.ok_bind] at h
        cases hr : getWords wl (it'.toListFuel calls) with
        | err e => rw [hr] at h; simp at h
        | panic => rw [hr] at h; simp at h
        | ok rest =>
          rw [hr] at h
          simp only [Res.ok_bind, Res.ok.injEq] at h
          subst h
          obtain ⟨h3, h4⟩ := h2 b it' hn
          simp only [BitIter.toListFuel, hn, restView, bind, Seen.bind, Seen.emit, getWordSeen_ok hw, ih _ _ _ hr, List.foldl_cons,
            hw, Option.getD_some, utf8_append_length, h3, h4]
          rfl

/-- What all of them show. -/
def joinView (total : Nat) (wl : WordList) : Nat → Nat → Nat → List Bits11 → List Ev
  | 0, _, _, _ => []
  | _ + 1, k, read, [] => (fillShape total k read).1
  | calls + 1, k, read, b :: bs =>
    (fillShape total k read).1 ++ ([.branch true, .load "wordlist" b.toNat] ++
      (phraseStores 0 (utf8 (wl[b.toNat]?.getD [])).length ++
        restView total wl calls (fillShape total k read).2.1 ((fillShape total k read).2.2 - 11)
          (utf8 (wl[b.toNat]?.getD [])).length bs))

theorem joinSeen_eq (total : Nat) (wl : WordList) (calls : Nat) (it : BitIter) (ws : List Str)
    (h : getWords wl (it.toListFuel calls) = .ok ws) :
    joinSeen total wl calls it = ⟨.ok (join [' '] ws), joinView total wl calls it.source.length it.read (it.toListFuel calls)⟩ := by
  cases calls with
  | zero =>
    simp only [BitIter.toListFuel, getWords] at h
    cases h
    rfl
  | succ calls =>
    obtain ⟨h1, h2⟩ := nextSeen_eq total it
    rw [joinSeen, h1]
    cases hn : it.next with
    | none =>
      rw [BitIter.toListFuel, hn] at h
      simp only [getWords] at h
      cases h
      simp [BitIter.toListFuel, hn, joinView, bind, Seen.bind, Seen.emit, pure, join]
    | some p =>
      obtain ⟨b, it'⟩ := p
      rw [BitIter.toListFuel, hn] at h
      simp only [getWords] at h
      cases hw : wl[b.toNat]? with
      | none => simp [Language.getWord, hw] at h
      | some w =>
        simp only [Language.getWord, hw, Res.ok_bind] at h
        cases hr : getWords wl (it'.toListFuel calls) with
        | err e => rw [hr] at h; simp at h
        | panic => rw [hr] at h; simp at h
        | ok rest =>
          rw [hr] at h
          simp only [Res.ok_bind, Res.ok.injEq] at h
          subst h
          obtain ⟨h3, h4⟩ := h2 b it' hn
          simp only [BitIter.toListFuel, hn, joinView, bind, Seen.bind, Seen.emit, getWordSeen_ok hw,
            joinRestSeen_eq total wl calls it' w rest hr, hw, Option.getD_some, h3, h4, join]

theorem wordsRead_append (a b : List Ev) : wordsRead (a ++ b) = wordsRead a ++ wordsRead b := by simp [wordsRead]

theorem otherEvents_append (a b : List Ev) : otherEvents (a ++ b) = otherEvents a ++ otherEvents b := by simp [otherEvents]

theorem wordsRead_stores (i n : Nat) : wordsRead (phraseStores i n) = [] := by
  simp [wordsRead, phraseStores, List.filterMap_eq_nil_iff]

theorem otherEvents_stores (i n : Nat) : otherEvents (phraseStores i n) = [] := by
  simp [otherEvents, phraseStores]

theorem wordsRead_fill (total k read : Nat) : wordsRead (fillShape total k read).1 = [] := by
  induction k generalizing read with
  | zero => unfold fillShape; split <;> rfl
  | succ k ih =>
    unfold fillShape
    split
    · simp only [wordsRead_append, ih]; rfl
    · rfl

theorem wordsRead_word (b : Nat) : wordsRead [.branch true, .load "wordlist" b] = [b] := rfl

theorem restView_words (total : Nat) (wl : WordList) (calls k read len : Nat) (bs : List Bits11) (h : bs.length ≤ calls) :
    wordsRead (restView total wl calls k read len bs) = bs.map BitVec.toNat := by
  induction calls generalizing k read len bs with
  | zero => cases bs with
    | nil => rfl
    | cons => simp at h
  | succ calls ih =>
    cases bs with
    | nil => exact wordsRead_fill _ _ _
    | cons b bs =>
      simp only [restView, wordsRead_append, wordsRead_fill, wordsRead_stores, wordsRead_word, List.nil_append, List.map_cons,
        ih _ _ _ bs (by simpa using h)]
      rfl

theorem restView_other (total : Nat) (wl : WordList) (calls k read len len' : Nat) (bs bs' : List Bits11)
    (h : bs.length = bs'.length) :
    otherEvents (restView total wl calls k read len bs) = otherEvents (restView total wl calls k read len' bs') := by
  induction calls generalizing k read len len' bs bs' with
  | zero => rfl
  | succ calls ih =>
    cases bs with
    | nil =>
      cases bs' with
      | nil => rfl
      | cons => simp at h
    | cons b bs =>
      cases bs' with
      | nil => simp at h
      | cons b' bs' =>
        simp only [restView, otherEvents_append, otherEvents_stores]
        rw [ih _ _ _ _ bs bs' (by simpa using h)]
        rfl

theorem joinView_words (total : Nat) (wl : WordList) (calls k read : Nat) (bs : List Bits11) (h : bs.length ≤ calls) :
    wordsRead (joinView total wl calls k read bs) = bs.map BitVec.toNat := by
  cases calls with
  | zero => cases bs with
    | nil => rfl
    | cons => simp at h
  | succ calls =>
    cases bs with
    | nil => exact wordsRead_fill _ _ _
    | cons b bs =>
      simp only [joinView, wordsRead_append, wordsRead_fill, wordsRead_stores, wordsRead_word, List.nil_append, List.map_cons,
        restView_words _ _ _ _ _ _ bs (by simpa using h)]
      rfl

theorem joinView_other (total : Nat) (wl : WordList) (calls k read : Nat) (bs bs' : List Bits11) (h : bs.length = bs'.length) :
    otherEvents (joinView total wl calls k read bs) = otherEvents (joinView total wl calls k read bs') := by
  cases calls with
  | zero => rfl
  | succ calls =>
    cases bs with
    | nil =>
      cases bs' with
      | nil => rfl
      | cons => simp at h
    | cons b bs =>
      cases bs' with
      | nil => simp at h
      | cons b' bs' =>
        simp only [joinView, otherEvents_append, otherEvents_stores]
        rw [restView_other _ _ _ _ _ _ _ bs bs' (by simpa using h)]
        rfl

theorem toListFuel_le (calls : Nat) (it : BitIter) : (it.toListFuel calls).length ≤ calls := by
  induction calls generalizing it with
  | zero => simp [BitIter.toListFuel]
  | succ calls ih =>
    unfold BitIter.toListFuel
    split
    · simp
    · simpa using ih _

theorem uncheckedSeen_eq (H : Hashes) (e : Bytes) (l : Language) :
    ∃ bs : List Bits11, bs = (BitIter.new (e ++ [H.sha256FirstByte e])).toList ∧
    Mnemonic.fromEntropyUncheckedSeen H e l = ⟨Mnemonic.fromEntropyUnchecked H e l,
      .hash e.length :: joinView (e.length + 1) l.wordlist ((e.length + 1) * 8) (e.length + 1) 0 bs⟩ := by
  refine ⟨_, rfl, ?_⟩
  obtain ⟨ws, h1, _⟩ := getWords_spec l (BitIter.new (e ++ [H.sha256FirstByte e])).toList (toList_lt _)
  have hl : (BitIter.new (e ++ [H.sha256FirstByte e])).source.length = e.length + 1 := by simp [BitIter.new]
  have hr : (BitIter.new (e ++ [H.sha256FirstByte e])).read = 0 := rfl
  have h2 : getWords l.wordlist ((BitIter.new (e ++ [H.sha256FirstByte e])).toListFuel ((e.length + 1) * 8)) = .ok ws := by
    rw [← h1, BitIter.toList, hl, hr]
    rfl
  simp only [Mnemonic.fromEntropyUncheckedSeen, hl, hr, Nat.add_zero, bind, Seen.bind, Seen.emit, joinSeen_eq _ _ _ _ ws h2, pure,
    List.append_nil, List.cons_append, List.nil_append, Mnemonic.fromEntropyUnchecked, h2, BitIter.toList, Res.bind]

theorem forKeySize_accepts {e : Bytes} (he : e.length ∈ entropyLengths) :
    ∃ t, MnemonicType.forKeySize (usizeMul e.length 8) = .ok t := by
  simp only [entropyLengths, List.mem_cons, List.not_mem_nil, or_false] at he
  rcases he with h | h | h | h | h <;> rw [h] <;> exact ⟨_, rfl⟩

theorem fromEntropySeen_eq (H : Hashes) (e : Bytes) (l : Language) (he : e.length ∈ entropyLengths) :
    (Mnemonic.fromEntropySeen H e l).out = Mnemonic.fromEntropy H e l ∧
    (Mnemonic.fromEntropySeen H e l).view = .branch true :: (Mnemonic.fromEntropyUncheckedSeen H e l).view := by
  obtain ⟨t, ht⟩ := forKeySize_accepts he
  obtain ⟨bs, _, hu⟩ := uncheckedSeen_eq H e l
  simp only [Mnemonic.fromEntropySeen, Mnemonic.fromEntropy, ht, Seen.tryOp, bind, Seen.bind, Res.bind, hu, List.cons_append,
    List.nil_append, and_self]

/-- The numbers that the bit iterator reads from the entropy and the first byte of its digest. -/
theorem toList_encodes (H : Hashes) (e : Bytes) (he : e.length ∈ entropyLengths) :
    Encodes (sha H) ((BitIter.new (e ++ [H.sha256FirstByte e])).toList.map BitVec.toNat) e := by
  have hlt : ∀ i ∈ (BitIter.new (e ++ [H.sha256FirstByte e])).toList.map BitVec.toNat, i < 2048 := by
    intro i hi
    obtain ⟨b, hb, rfl⟩ := List.mem_map.mp hi
    exact toList_lt _ b hb
  rw [toList_map_toNat] at hlt ⊢
  have hn : 8 * (e ++ [H.sha256FirstByte e]).length / 11 = 3 * (e.length / 4) := by
    simp [entropyLengths] at he
    simp
    rcases he with h | h | h | h | h <;> simp [h]
  rw [hn] at hlt ⊢
  have hlen : e.length = 4 * (e.length / 4) := by
    simp [entropyLengths] at he
    rcases he with h | h | h | h | h <;> simp [h]
  have hcs : e.length / 4 ≤ 8 := by
    simp [entropyLengths] at he
    rcases he with h | h | h | h | h <;> simp [h]
  refine ⟨?_, hlt, ?_⟩
  · simp [sizes, entropyLengths] at he ⊢
    rcases he with h | h | h | h | h <;> simp [h]
  · rw [flatMap_map_bits _ _ (by simp; omega), bitsOfBytes_append, List.take_append]
    simp only [List.length_map, List.length_range, Nat.mul_div_cancel_left _ (show 0 < 3 by decide), sha,
      sha256_bits_head H e _ hcs]
    congr 1
    · rw [List.take_of_length_le]; simp; omega
    · rw [bitsOfBytes_cons, bitsOfBytes_nil, List.append_nil, bitsOfBytes_length]
      congr 1; omega

theorem wordsRead_unchecked (H : Hashes) (e : Bytes) (l : Language) (he : e.length ∈ entropyLengths) :
    Encodes (sha H) (wordsRead (Mnemonic.fromEntropyUncheckedSeen H e l).view) e := by
  obtain ⟨bs, hbs, hu⟩ := uncheckedSeen_eq H e l
  have hlen : bs.length ≤ (e.length + 1) * 8 := by
    rw [hbs, BitIter.toList]
    exact (toListFuel_le _ _).trans (by simp [BitIter.new])
  have hw : wordsRead (Mnemonic.fromEntropyUncheckedSeen H e l).view = bs.map BitVec.toNat := by
    rw [hu, ← joinView_words (e.length + 1) l.wordlist _ (e.length + 1) 0 bs hlen]
    rfl
  rw [hw, hbs]
  exact toList_encodes H e he

/-- **C119** Making a mnemonic shows all of it: the entries of the word list that are read, in order, are BIP39's encoding of the
entropy, so the views of two different entropies differ.  Nothing else depends on the entropy: apart from these reads, and
from the writing of words of different lengths, what is seen is the same for all entropies of one length. -/
theorem C119_making_shows_the_words (H : Hashes) (e e' : Bytes) (l : Language) (he : e.length ∈ entropyLengths)
    (he' : e'.length ∈ entropyLengths) :
    (Mnemonic.fromEntropySeen H e l).out = Mnemonic.fromEntropy H e l ∧
    Encodes (sha H) (wordsRead (Mnemonic.fromEntropySeen H e l).view) e ∧
    ((Mnemonic.fromEntropySeen H e l).view = (Mnemonic.fromEntropySeen H e' l).view ↔ e = e') ∧
    (e.length = e'.length →
      otherEvents (Mnemonic.fromEntropySeen H e l).view = otherEvents (Mnemonic.fromEntropySeen H e' l).view) := by
  obtain ⟨h1, h2⟩ := fromEntropySeen_eq H e l he
  obtain ⟨_, h2'⟩ := fromEntropySeen_eq H e' l he'
  have henc : Encodes (sha H) (wordsRead (Mnemonic.fromEntropySeen H e l).view) e := by
    rw [h2]; exact wordsRead_unchecked H e l he
  have henc' : Encodes (sha H) (wordsRead (Mnemonic.fromEntropySeen H e' l).view) e' := by
    rw [h2']; exact wordsRead_unchecked H e' l he'
  refine ⟨h1, henc, ⟨fun hv => ?_, fun h => by rw [h]⟩, fun hl => ?_⟩
  · rw [hv] at henc
    have hlen : e.length = e'.length := by
      rw [encodes_length (fun b => (H.sha256 b).2) henc, encodes_length (fun b => (H.sha256 b).2) henc']
    have hb := henc.2.2.symm.trans henc'.2.2
    exact bitsOfBytes_inj (List.append_inj_left hb (by rw [bitsOfBytes_length, bitsOfBytes_length, hlen]))
  · obtain ⟨bs, hbs, hu⟩ := uncheckedSeen_eq H e l
    obtain ⟨bs', hbs', hu'⟩ := uncheckedSeen_eq H e' l
    have hb : bs.length = bs'.length := by
      rw [hbs, hbs', (BitIter.toList_spec _).1, (BitIter.toList_spec _).1]
      simp [hl]
    rw [h2, h2', hu, hu', ← hl]
    have := joinView_other (e.length + 1) l.wordlist ((e.length + 1) * 8) (e.length + 1) 0 bs bs' hb
    have hc : ∀ n (v v' : List Ev), otherEvents v = otherEvents v' →
        otherEvents (.branch true :: .hash n :: v) = otherEvents (.branch true :: .hash n :: v') := by
      intro n v v' h
      simpa [otherEvents] using h
    exact hc _ _ _ this

/-- **C119** The same of `new` with the bytes drawn. -/
theorem C119_drawing_shows_the_words (H : Hashes) (rng rng' : (n : Nat) → ByteArr n) (t : MnemonicType) (l : Language) :
    (Mnemonic.newSeen H rng t l).out = Mnemonic.new H rng t l ∧
    Encodes (sha H) (wordsRead (Mnemonic.newSeen H rng t l).view) (rng (t.entropyBits / 8)).1 ∧
    ((Mnemonic.newSeen H rng t l).view = (Mnemonic.newSeen H rng' t l).view ↔
      rng (t.entropyBits / 8) = rng' (t.entropyBits / 8)) ∧
    otherEvents (Mnemonic.newSeen H rng t l).view = otherEvents (Mnemonic.newSeen H rng' t l).view := by
  obtain ⟨_, _, hu⟩ := uncheckedSeen_eq H (rng (t.entropyBits / 8)).1 l
  have hlen : ∀ r : (n : Nat) → ByteArr n, (r (t.entropyBits / 8)).1.length ∈ entropyLengths := by
    intro r
    rw [(r (t.entropyBits / 8)).2]
    cases t <;> decide
  have hne : ∀ r : (n : Nat) → ByteArr n, (Mnemonic.fromEntropySeen H (r (t.entropyBits / 8)).1 l).view =
      .branch true :: (Mnemonic.newSeen H r t l).view := by
    intro r
    rw [(fromEntropySeen_eq H _ l (hlen r)).2]
    rfl
  obtain ⟨_, _, h3, h4⟩ := C119_making_shows_the_words H _ _ l (hlen rng) (hlen rng')
  rw [hne, hne] at h3 h4
  refine ⟨?_, wordsRead_unchecked H _ l (hlen rng), ?_, ?_⟩
  · unfold Mnemonic.newSeen
    rw [hu]
    rfl
  · rw [Subtype.ext_iff, ← h3]
    simp
  · have := h4 (by rw [(rng (t.entropyBits / 8)).2, (rng' (t.entropyBits / 8)).2])
    simpa [otherEvents] using this

/-- Two entropies of one length, and the words that each shows. -/
example :
    wordsRead (Mnemonic.fromEntropySeen (constHash 5) (List.replicate 16 0) .english).view = List.replicate 12 0 ∧
    wordsRead (Mnemonic.fromEntropySeen (constHash 5) (List.replicate 16 255) .english).view =
      List.replicate 11 2047 ++ [2032] := by
  decide +kernel

/-! ### validating -/

/-- What the flushing loop shows. -/
def flushView : Nat → Nat → List Ev
  | offset + 8, n => [.branch true, .store "bits" n] ++ flushView offset (n + 1)
  | _, _ => [.branch false]

theorem flushSeen_eq (o : Nat) (r : BitVec 32) (inner : Bytes) :
    BitWriter.flushSeen o r inner = (BitWriter.flush o r inner, flushView o inner.length) ∧
    (BitWriter.flush o r inner).offset = o % 8 ∧ (BitWriter.flush o r inner).inner.length = inner.length + o / 8 := by
  induction o using Nat.strongRecOn generalizing r inner with
  | ind o ih =>
    by_cases h : 8 ≤ o
    · obtain ⟨o, rfl⟩ : ∃ k, o = k + 8 := ⟨o - 8, by omega⟩
      obtain ⟨h1, h2, h3⟩ := ih o (by omega) (r <<< 8) (inner ++ [UInt8.ofBitVec ((r >>> 24).setWidth 8)])
      rw [BitWriter.flushSeen, BitWriter.flush, flushView, h1, h2, h3]
      simp only [List.length_append, List.length_cons, List.length_nil, Nat.zero_add, true_and]
      omega
    · have : o = 0 ∨ o = 1 ∨ o = 2 ∨ o = 3 ∨ o = 4 ∨ o = 5 ∨ o = 6 ∨ o = 7 := by omega
      rcases this with h | h | h | h | h | h | h | h <;> subst h <;> exact ⟨rfl, rfl, rfl⟩

theorem pushSeen_eq (w : BitWriter) (b : Bits11) :
    w.pushSeen b = (w.push b, flushView (w.offset + 11) w.inner.length) ∧
    (w.push b).offset = (w.offset + 11) % 8 ∧ (w.push b).inner.length = w.inner.length + (w.offset + 11) / 8 :=
  flushSeen_eq _ _ _

/-- Two pieces of phrases that look alike: they have the same number of bytes, looking them up shows the same, and both or
neither are in the list. -/
def AlikeWords (look : Str → List Ev) (l : Language) (w w' : Str) : Prop :=
  (utf8 w).length = (utf8 w').length ∧ look w = look w' ∧ (w ∈ words l ↔ w' ∈ words l)

theorem pushWordsSeen_out (look : Str → List Ev) (m : WordMap) (ws : List Str) (at_ : Nat) (w : BitWriter) :
    (pushWordsSeen look m at_ ws w).out = pushWords m ws w := by
  induction ws generalizing at_ w with
  | nil => rfl
  | cons v ws ih =>
    rw [pushWordsSeen, pushWords]
    cases hb : Language.getBits m v with
    | err e => rfl
    | panic => rfl
    | ok b =>
      simp only [bind, Seen.bind, Seen.emit, Seen.tryOp, Res.bind, ih, (pushSeen_eq w b).1]

theorem pushWordsSeen_alike (look : Str → List Ev) (l : Language) {ws ws' : List Str}
    (h : List.Forall₂ (AlikeWords look l) ws ws') (at_ : Nat) (w w' : BitWriter) (ho : w.offset = w'.offset)
    (hi : w.inner.length = w'.inner.length) :
    (pushWordsSeen look l.wordmap at_ ws w).view = (pushWordsSeen look l.wordmap at_ ws' w').view ∧
    ((pushWords l.wordmap ws w = .err .invalidWord ∧ pushWords l.wordmap ws' w' = .err .invalidWord) ∨
      ∃ x x', pushWords l.wordmap ws w = .ok x ∧ pushWords l.wordmap ws' w' = .ok x' ∧ x.offset = x'.offset ∧
        x.inner.length = x'.inner.length) := by
  induction h generalizing at_ w w' with
  | nil => exact ⟨rfl, .inr ⟨w, w', rfl, rfl, ho, hi⟩⟩
  | @cons v v' ws ws' hv _ ih =>
    obtain ⟨h1, h2, h3⟩ := hv
    have hok : ∀ v, v ∈ words l → ∃ b, Language.getBits l.wordmap v = .ok b := by
      intro v hv
      have := (getBits_isOk_iff l v).mpr (by rw [words_eq]; exact hv)
      cases hg : Language.getBits l.wordmap v with
      | ok b => exact ⟨b, rfl⟩
      | err e => simp [hg, Res.isOk] at this
      | panic => simp [hg, Res.isOk] at this
    have herr : ∀ v, v ∉ words l → Language.getBits l.wordmap v = .err .invalidWord := fun v hv =>
      (getBits_eq_err_iff l v .invalidWord).mpr ⟨rfl, by rw [words_eq]; exact hv⟩
    by_cases hm : v ∈ words l
    · obtain ⟨b, hb⟩ := hok v hm
      obtain ⟨b', hb'⟩ := hok v' (h3.mp hm)
      obtain ⟨p1, p2, p3⟩ := pushSeen_eq w b
      obtain ⟨p1', p2', p3'⟩ := pushSeen_eq w' b'
      obtain ⟨i1, i2⟩ := ih (at_ + (utf8 v).length + 1) (w.push b) (w'.push b') (by rw [p2, p2', ho]) (by rw [p3, p3', ho, hi])
      constructor
      · simp only [pushWordsSeen, hb, hb', bind, Seen.bind, Seen.emit, Seen.tryOp, p1, p1', h2, ← h1, ho, hi, i1]
      · simp only [pushWords, hb, hb', Res.ok_bind]
        exact i2
    · have hb := herr v hm
      have hb' := herr v' (fun h => hm (h3.mpr h))
      constructor
      · simp only [pushWordsSeen, hb, hb', bind, Seen.bind, Seen.emit, Seen.tryOp, h2, ← h1]
      · left
        simp only [pushWords, hb, hb', Res.err_bind, and_self]

/-- `phrase_to_entropy` after the loop. -/
def pteRest (H : Hashes) (bits : BitWriter) : Seen ErrorKind Bytes := do
  let mtype ← Seen.tryOp (MnemonicType.forWordCount (bits.len / 11))
  Seen.emit [.branch (bits.len == mtype.totalBits)]
  if bits.len ≠ mtype.totalBits then ⟨.panic, []⟩ else do
  Seen.emit bits.intoBytesSeen.2
  let entropy := bits.intoBytesSeen.1
  let entropyBytes := mtype.entropyBits / 8
  Seen.emit [.branch (entropyBytes < entropy.length), .load "bits" entropyBytes]
  let last ← ⟨index entropy entropyBytes, []⟩
  let actualChecksum ← ⟨checksum' last mtype.checksumBits, []⟩
  let entropy := entropy.take entropyBytes
  Seen.emit [.hash entropy.length]
  let checksumByte := H.sha256FirstByte entropy
  let expectedChecksum ← ⟨checksum' checksumByte mtype.checksumBits, []⟩
  Seen.emit [.branch (actualChecksum != expectedChecksum)]
  if actualChecksum ≠ expectedChecksum then ⟨.err .invalidChecksum, []⟩
  else pure entropy

theorem intoBytesSeen_eq (w : BitWriter) : w.intoBytesSeen =
    (w.intoBytes, if w.offset ≠ 0 then [.branch true, .store "bits" w.inner.length] else [.branch false]) ∧
    w.intoBytes.length = w.inner.length + if w.offset ≠ 0 then 1 else 0 := by
  unfold BitWriter.intoBytesSeen BitWriter.intoBytes
  split <;> simp

theorem seen_out_bind {ε α β : Type} (x : Seen ε α) (f : α → Seen ε β) : (x >>= f).out = x.out >>= fun a => (f a).out := by
  show (Seen.bind x f).out = Res.bind x.out _
  unfold Seen.bind
  cases h : x.out <;> rfl

theorem emit_out {ε β : Type} (v : List Ev) (f : Unit → Seen ε β) : (Seen.emit v >>= f).out = (f ()).out := rfl

theorem pte_out (look : Str → List Ev) (H : Hashes) (p : Str) (l : Language) :
    (Mnemonic.phraseToEntropySeen look H p l).out = Mnemonic.phraseToEntropy H p l := by
  rw [Mnemonic.phraseToEntropySeen, seen_out_bind, pushWordsSeen_out, Mnemonic.phraseToEntropy]
  congr 1
  funext bits
  rw [seen_out_bind]
  show Res.bind _ _ = Res.bind _ _
  congr 1
  funext t
  rw [emit_out]
  by_cases h : bits.len ≠ t.totalBits
  · rw [if_pos h, if_pos h]
  · rw [if_neg h, if_neg h]
    rw [emit_out]
    simp only [(intoBytesSeen_eq bits).1]
    rw [emit_out, seen_out_bind]
    congr 1
    funext last
    rw [seen_out_bind]
    congr 1
    funext a
    rw [emit_out, seen_out_bind]
    congr 1
    funext b
    rw [emit_out]
    split <;> rfl

theorem validateSeen_out (look : Str → List Ev) (H : Hashes) (p : Str) (l : Language) :
    (Mnemonic.validateSeen look H p l).out = Mnemonic.validate H p l := by
  rw [Mnemonic.validateSeen, emit_out, seen_out_bind, Mnemonic.validate, ← pte_out look]
  rfl

theorem emit_view {ε β : Type} (v : List Ev) (f : Unit → Seen ε β) : (Seen.emit v >>= f).view = v ++ (f ()).view := rfl

theorem checksum_ok (b : UInt8) (t : MnemonicType) : ∃ c, checksum' b t.checksumBits = .ok c := by
  cases t <;> exact ⟨_, rfl⟩

theorem index_cases (bs : Bytes) (n : Nat) :
    (n < bs.length ∧ ∃ b, index bs n = .ok b) ∨ (bs.length ≤ n ∧ index bs n = .panic) := by
  unfold index
  by_cases h : n < bs.length
  · left; exact ⟨h, bs[n], by simp [h]⟩
  · right; exact ⟨by omega, by simp [List.getElem?_eq_none (by omega : bs.length ≤ n)]⟩

theorem pteRest_alike (H H' : Hashes) (w w' : BitWriter) (ho : w.offset = w'.offset) (hi : w.inner.length = w'.inner.length)
    (hr : (pteRest H w).out.isOk = (pteRest H' w').out.isOk) : (pteRest H w).view = (pteRest H' w').view := by
  have hlen : w.len = w'.len := by unfold BitWriter.len; rw [ho, hi]
  revert hr
  unfold pteRest
  rw [hlen]
  cases ht : MnemonicType.forWordCount (w'.len / 11) with
  | err e => intro _; rfl
  | panic => intro _; rfl
  | ok t =>
    obtain ⟨e1, e2⟩ := intoBytesSeen_eq w
    obtain ⟨e1', e2'⟩ := intoBytesSeen_eq w'
    have hb : w.intoBytes.length = w'.intoBytes.length := by rw [e2, e2', ho, hi]
    by_cases h : w'.len ≠ t.totalBits
    · intro _; simp only [bind, Seen.bind, Seen.tryOp, Seen.emit, if_pos h]
    · simp only [bind, Seen.bind, Seen.tryOp, Seen.emit, if_neg h, e1, e1', ← ho, ← hi, ← hb, List.length_take]
      rcases index_cases w.intoBytes (t.entropyBits / 8) with ⟨g, b, hx⟩ | ⟨g, hx⟩ <;>
        rcases index_cases w'.intoBytes (t.entropyBits / 8) with ⟨g', b', hx'⟩ | ⟨g', hx'⟩
      · obtain ⟨c1, hc1⟩ := checksum_ok b t
        obtain ⟨c2, hc2⟩ := checksum_ok (H.sha256FirstByte (w.intoBytes.take (t.entropyBits / 8))) t
        obtain ⟨d1, hd1⟩ := checksum_ok b' t
        obtain ⟨d2, hd2⟩ := checksum_ok (H'.sha256FirstByte (w'.intoBytes.take (t.entropyBits / 8))) t
        simp only [hx, hx', hc1, hc2, hd1, hd2]
        by_cases q : c1 = c2 <;> by_cases q' : d1 = d2 <;> simp [q, q', Res.isOk, pure, bne]
      · omega
      · omega
      · intro _
        simp only [hx, hx']

theorem pte_alike (look : Str → List Ev) (H H' : Hashes) (p p' : Str) (l : Language)
    (h : List.Forall₂ (AlikeWords look l) (splitChar ' ' p) (splitChar ' ' p'))
    (hr : (Mnemonic.phraseToEntropy H p l).isOk = (Mnemonic.phraseToEntropy H' p' l).isOk) :
    (Mnemonic.phraseToEntropySeen look H p l).view = (Mnemonic.phraseToEntropySeen look H' p' l).view := by
  rw [← pte_out look, ← pte_out look] at hr
  have e : ∀ H p, Mnemonic.phraseToEntropySeen look H p l =
    pushWordsSeen look l.wordmap 0 (splitChar ' ' p) BitWriter.withCapacity >>= pteRest H := fun _ _ => rfl
  rw [e, e] at hr ⊢
  obtain ⟨h1, h2⟩ := pushWordsSeen_alike look l h 0 BitWriter.withCapacity BitWriter.withCapacity rfl rfl
  rw [← pushWordsSeen_out look _ _ 0, ← pushWordsSeen_out look _ _ 0] at h2
  simp only [bind, Seen.bind] at hr ⊢
  rcases h2 with ⟨a, b⟩ | ⟨x, x', a, b, c, d⟩
  · simp only [a, b, h1]
  · simp only [a, b, h1] at hr ⊢
    rw [pteRest_alike H H' x x' c d hr]

/-- **C119** What validating a phrase shows to someone who sees branches and memory accesses is: how many pieces there are and how
many bytes each has, what looking each of them up shows, which of them are in the list, and whether the phrase was valid.
Two phrases that agree in these look the same. -/
theorem C119_validating_shows_no_more (look : Str → List Ev) (H H' : Hashes) (p p' : Str) (l : Language) (ws ws' : List Str)
    (hp : Pieces p ws) (hp' : Pieces p' ws')
    (hbytes : ws.map (fun w => (utf8 w).length) = ws'.map (fun w => (utf8 w).length))
    (hlook : ws.map look = ws'.map look)
    (hlist : ws.map (fun w => decide (w ∈ words l)) = ws'.map (fun w => decide (w ∈ words l)))
    (hvalid : Mnemonic.validate H p l = .ok () ↔ Mnemonic.validate H' p' l = .ok ()) :
    (Mnemonic.validateSeen look H p l).out = Mnemonic.validate H p l ∧
    (Mnemonic.validateSeen look H p l).view = (Mnemonic.validateSeen look H' p' l).view := by
  refine ⟨validateSeen_out look H p l, ?_⟩
  have hf : List.Forall₂ (AlikeWords look l) ws ws' := by
    clear hp hp' hvalid
    induction ws generalizing ws' with
    | nil => cases ws' with
      | nil => exact .nil
      | cons _ _ => simp at hlook
    | cons w ws ih => cases ws' with
      | nil => simp at hlook
      | cons w' ws' =>
        simp only [List.map_cons, List.cons.injEq, decide_eq_decide] at hbytes hlook hlist
        exact .cons ⟨hbytes.1, hlook.1, hlist.1⟩ (ih ws' hbytes.2 hlook.2 hlist.2)
  rw [pieces_iff] at hp hp'
  subst hp hp'
  have hv : ∀ H p, (Mnemonic.phraseToEntropy H p l).isOk = true ↔ Mnemonic.validate H p l = .ok () := by
    intro H p
    unfold Mnemonic.validate
    cases Mnemonic.phraseToEntropy H p l <;> simp [Res.isOk]
  have hr : (Mnemonic.phraseToEntropy H p l).isOk = (Mnemonic.phraseToEntropy H' p' l).isOk := by
    rw [Bool.eq_iff_iff, hv, hv, hvalid]
  have := pte_alike look H H' p p' l hf hr
  have e : ∀ H p, (Mnemonic.validateSeen look H p l).view = (Mnemonic.phraseToEntropySeen look H p l).view ++
      (Seen.tryOp (Mnemonic.phraseToEntropySeen look H p l).out >>= fun _ => pure () : Seen ErrorKind Unit).view := fun _ _ => rfl
  have t : ∀ r : Res ErrorKind Bytes, (Seen.tryOp r >>= fun _ => pure () : Seen ErrorKind Unit).view =
      match r with | .ok _ => [.branch true] | .err _ => [.branch false] | .panic => [] := by
    intro r; cases r <;> rfl
  rw [e, e, this, pte_out, pte_out, t, t]
  have np := (phraseToEntropy_class H p l).1
  have np' := (phraseToEntropy_class H' p' l).1
  cases h1 : Mnemonic.phraseToEntropy H p l <;> cases h2 : Mnemonic.phraseToEntropy H' p' l <;> simp_all [Res.isOk]

/-- Two different valid phrases that look the same if a lookup shows nothing, and a third, invalid, that does not. -/
example :
    let abandon := "abandon".toList
    let ability := "ability".toList
    let p := spaced (List.replicate 12 abandon)
    let p' := spaced (List.replicate 11 ability ++ [abandon])
    let q := spaced (List.replicate 12 ability)
    let look : Str → List Ev := fun _ => []
    p ≠ p' ∧ Mnemonic.validate (constHash 5) p .english = .ok () ∧ Mnemonic.validate (constHash 6) p' .english = .ok () ∧
    (Mnemonic.validateSeen look (constHash 5) p .english).view = (Mnemonic.validateSeen look (constHash 6) p' .english).view ∧
    (Mnemonic.validateSeen look (constHash 5) p .english).view ≠ (Mnemonic.validateSeen look (constHash 6) q .english).view := by
  decide +kernel

end Kms.Props
