import Verif.Proofs.Heap
import Verif.Props.Seed
/-
C98 and C99: what the calls of the mnemonic module leave in heap memory.
-/
namespace Kms.Props
open Kms.Bip39 Kms.Spec

/-! ### values -/

theorem fromEntropyUncheckedMem_spec (A : Allocator) (H : Hashes) (e : Bytes) (l : Language) (he : 16 ≤ e.length) :
    ∃ m mem, Mnemonic.fromEntropyUnchecked H e l = .ok m ∧ Mnemonic.fromEntropyUncheckedMem A H e l = ⟨.ok mem, []⟩ ∧
      mem.phrase.bytes = utf8 m.phrase ∧ mem.entropy.bytes = m.entropy := by
  obtain ⟨v, ws, h1, h2, h3⟩ := joinBitsMem_spec A l (e ++ [H.sha256FirstByte e]) (by simp; omega)
  refine ⟨⟨join [' '] ws, l, e⟩, ⟨v, .exact e⟩, ?_, ?_, h3, by simp⟩
  · rw [Mnemonic.fromEntropyUnchecked, h2]
    rfl
  · simp only [Mnemonic.fromEntropyUncheckedMem, VecMem.exact_bytes]
    rw [h1]
    rfl

theorem forKeySize_ok {n : Nat} {t : MnemonicType} (h : MnemonicType.forKeySize n = .ok t) : 128 ≤ n := by
  unfold MnemonicType.forKeySize at h
  split at h <;> simp at h <;> omega

theorem fromEntropyMem_spec (A : Allocator) (H : Hashes) (e : Bytes) (l : Language) :
    (Mnemonic.fromEntropyMem A H e l).freed = [] ∧ SameMnemonic (Mnemonic.fromEntropy H e l) (Mnemonic.fromEntropyMem A H e l) := by
  unfold Mnemonic.fromEntropy Mnemonic.fromEntropyMem
  cases ht : MnemonicType.forKeySize (usizeMul e.length 8) with
  | ok t =>
    have h1 := forKeySize_ok ht
    have h2 : 16 ≤ e.length := by
      have := Nat.mod_le (e.length * 8) (2 ^ 64)
      simp only [usizeMul] at h1
      omega
    obtain ⟨m, mem, a, b, c, d⟩ := fromEntropyUncheckedMem_spec A H e l h2
    rw [Res.ok_bind, Heap.lift_ok, Heap.ok_nil_bind, a, b]
    exact ⟨rfl, c, d⟩
  | err x => exact ⟨rfl, rfl⟩
  | panic => exact ⟨rfl, trivial⟩

theorem newMem_spec (A : Allocator) (H : Hashes) (rng : (n : Nat) → ByteArr n) (t : MnemonicType) (l : Language) :
    (Mnemonic.newMem A H rng t l).freed = [] ∧ SameMnemonic (Mnemonic.new H rng t l) (Mnemonic.newMem A H rng t l) := by
  unfold Mnemonic.new Mnemonic.newMem
  have h : 16 ≤ (rng (t.entropyBits / 8)).1.length := by
    rw [(rng (t.entropyBits / 8)).2]
    cases t <;> decide
  obtain ⟨m, mem, a, b, c, d⟩ := fromEntropyUncheckedMem_spec A H _ l h
  rw [a, b]
  exact ⟨rfl, c, d⟩

theorem fromPhraseMem_spec (A : Allocator) (H : Hashes) (p : Str) (l : Language) :
    SameMnemonic (Mnemonic.fromPhrase H p l) (Mnemonic.fromPhraseMem A H p l) := by
  obtain ⟨v, fr, h1, h2, -⟩ := joinNfkdMem_spec (ε := ErrorKind) A (splitWhitespace p)
  unfold Mnemonic.fromPhrase Mnemonic.fromPhraseMem
  rw [h1, Heap.mk_ok_bind]
  simp only
  rcases Mnemonic.phraseToEntropyMem_out A H (Mnemonic.normalisePhrase p) l with ⟨e, mem, a, b, c⟩ | ⟨e, a, b⟩
  · rw [a, b]
    exact ⟨h2, c⟩
  · rw [a, b]
    rfl

theorem asBytesMem_spec {ε : Type} (A : Allocator) (m : Mnemonic) :
    ∃ v fr, (m.asBytesMem A : Heap ε VecMem) = ⟨.ok v, fr⟩ ∧ v.bytes = m.asBytes := by
  unfold Mnemonic.asBytesMem Mnemonic.asBytes
  split
  · have h := (VecMem.reserve_appends (ε := ε) A 0 .empty (utf8 m.phrase).length).bind
      (fun v => VecMem.appendEach_appends A 0 (m.phrase.map Mnemonic.gb18030Char) v)
    obtain ⟨v, fr, h1, h2, -, -⟩ := h
    exact ⟨v, fr, h1, by rw [h2]; simp [List.flatMap_def]⟩
  · exact ⟨_, _, rfl, by simp⟩

theorem mem_give {ε : Type} {v : VecMem} {bs : Bytes} (h : v.bytes = bs) (hne : bs ≠ []) :
    ∃ b ∈ (v.free : Heap ε Unit).freed, bs <+: b := by
  have hc : v.cells ≠ [] := by
    intro h0
    rw [← h, VecMem.bytes, h0] at hne
    simp at hne
  exact ⟨v.cells, by simp [VecMem.free, Heap.give, hc], h ▸ v.bytes_prefix⟩

/-- What `Seed::new` returns and gives back. -/
theorem seedMem_spec (A : Allocator) (m : Mnemonic) (pw : Str) :
    ∃ fr : List Bytes, (∀ H, ∃ v, (Seed.newMem A H m pw : Heap Unit VecMem) = ⟨.ok v, fr⟩ ∧ v.cells = v.bytes ∧
      v.bytes = (Seed.new H m pw).bytes) ∧
      (m.asBytes ≠ [] → ∃ b ∈ fr, m.asBytes <+: b) ∧ (∃ b ∈ fr, utf8 (Seed.salt pw) <+: b) ∧
      (nfkd (Seed.salt pw) ≠ [] → ∃ b ∈ fr, utf8 (nfkd (Seed.salt pw)) <+: b) := by
  obtain ⟨s1, f1, e1, h1, -, -⟩ := VecMem.append_appends (ε := Unit) A 0 (.withCapacity A 16) (utf8 (Seed.salt []))
  obtain ⟨s2, f2, e2, h2, -, -⟩ := VecMem.append_appends (ε := Unit) A 0 s1 (utf8 pw)
  obtain ⟨s3, f3, e3, h3, -, -⟩ := VecMem.appendEach_appends (ε := Unit) A 0 (charBytes (nfkd (Seed.salt pw))) .empty
  obtain ⟨s4, f4, e4, h4⟩ := asBytesMem_spec (ε := Unit) A m
  rw [charBytes_flatten, VecMem.empty_bytes, List.nil_append] at h3
  have hsalt : s2.bytes = utf8 (Seed.salt pw) := by
    rw [h2, h1, VecMem.withCapacity_bytes, List.nil_append, ← utf8_append]
    rfl
  refine ⟨f1 ++ (f2 ++ (f3 ++ (f4 ++ ((s4.free : Heap Unit Unit).freed ++ ((s3.free : Heap Unit Unit).freed ++
    ((s2.free : Heap Unit Unit).freed ++ [])))))), ?_, ?_, ?_, ?_⟩
  · intro H
    refine ⟨.exact (Seed.new H m pw).bytes, ?_, by simp [VecMem.exact, VecMem.bytes], by simp⟩
    unfold Seed.newMem
    rw [e1, Heap.mk_ok_bind, e2, Heap.mk_ok_bind, e3, Heap.mk_ok_bind, e4, Heap.mk_ok_bind, h3, h4]
    have hz : H.pbkdf2Body 0 m.asBytes (utf8 (nfkd (Seed.salt pw))) 2048 = (Seed.new H m pw).bytes := by
      rw [Seed.new, Hashes.pbkdf2]
    rw [hz]
    generalize (Seed.new H m pw).bytes = z
    rfl
  · intro hne
    obtain ⟨b, hb, hp⟩ := mem_give (ε := Unit) h4 hne
    exact ⟨b, by simp [hb], hp⟩
  · obtain ⟨b, hb, hp⟩ := mem_give (ε := Unit) hsalt (by simp [Seed.salt, utf8])
    exact ⟨b, by simp [hb], hp⟩
  · intro hne
    have h5 : utf8 (nfkd (Seed.salt pw)) ≠ [] := by
      intro h0
      cases hn : nfkd (Seed.salt pw) with
      | nil => exact hne hn
      | cons c r =>
        rw [hn] at h0
        have := congrArg List.length h0
        simp [utf8, String.length_utf8EncodeChar] at this
        have h6 := Char.utf8Size_pos c
        omega
    obtain ⟨b, hb, hp⟩ := mem_give (ε := Unit) h3 h5
    exact ⟨b, by simp [hb], hp⟩

/-! ### C98 -/

theorem zeroize_zero {ε : Type} (v : VecMem) : ∀ b ∈ (v.freeZeroizing : Heap ε Unit).freed, ∀ x ∈ b, x = 0 := by
  intro b hb x hx
  simp only [VecMem.freeZeroizing, Heap.give] at hb
  split at hb
  · simp at hb
  · simp at hb
    subst hb
    rw [VecMem.zeroize_eq] at hx
    exact (List.mem_replicate.1 hx).2

theorem dropMem_zero {ε : Type} (m : Mnemonic.Mem) : ∀ b ∈ (Mnemonic.dropMem m : Heap ε Unit).freed, ∀ x ∈ b, x = 0 := by
  intro b hb
  have e : (Mnemonic.dropMem m : Heap ε Unit).freed =
    (m.phrase.freeZeroizing : Heap ε Unit).freed ++ (m.entropy.freeZeroizing : Heap ε Unit).freed := rfl
  rw [e] at hb
  rcases List.mem_append.mp hb with h | h
  · exact zeroize_zero _ b h
  · exact zeroize_zero _ b h

/-- C98. A program that makes mnemonics from entropy or at random, copies them, drops them, takes their phrases, and copies and
drops seeds, gives nothing but zeros back to the allocator, in any order and number of these steps, whatever the allocator
does, and however the mnemonics and seeds it started with were made. -/
theorem C98_freed_memory_is_zero (A : Allocator) (H : Hashes) {s t : List Mnemonic.Mem × List VecMem} {freed : List Bytes}
    (h : HeapSteps A H s t freed) : ∀ b ∈ freed, ∀ x ∈ b, x = 0 := by
  induction h with
  | done => simp
  | step h1 _ ih =>
    intro b hb
    rcases List.mem_append.mp hb with hb | hb
    · cases h1 with
      | fromEntropy ms ss e l m _ => rw [(fromEntropyMem_spec A H e l).1] at hb; simp at hb
      | fromEntropyErr ms ss e l x _ => rw [(fromEntropyMem_spec A H e l).1] at hb; simp at hb
      | new ms ss rng t l m _ => rw [(newMem_spec A H rng t l).1] at hb; simp at hb
      | clone ms ss m _ => simp at hb
      | drop before after ss m => exact dropMem_zero m b hb
      | intoPhrase before after ss m =>
        have e : (Mnemonic.intoPhraseHeap m : Heap Unit VecMem).freed =
          (Mnemonic.dropMem { m with phrase := .empty } : Heap Unit Unit).freed ++ [] := rfl
        rw [e, List.append_nil] at hb
        exact dropMem_zero _ b hb
      | cloneSeed ms ss s _ => simp at hb
      | dropSeed ms before after s => exact zeroize_zero s b hb
    · exact ih b hb

/-- An allocator: capacities double, from 8 on, buffers are never extended where they are, and fresh memory holds 170 everywhere. -/
def plainAllocator : Allocator where
  grow cap need := max 8 (max (2 * cap) need)
  fits cap need := by omega
  inPlace _ _ := false
  fresh n := ⟨List.replicate n 170, by simp⟩

/-- A mnemonic with secrets in use and in its spare capacity is copied, the copy dropped, and the phrase of the original taken; what is given
back is three buffers of zeros. -/
example (H : Hashes) : HeapSteps plainAllocator H ([⟨⟨[1, 2, 3, 4], 2, by decide⟩, ⟨[5, 6, 7], 3, by decide⟩⟩], []) ([], [])
    [[0, 0], [0, 0, 0], [0, 0, 0]] :=
  .step (.clone _ _ ⟨⟨[1, 2, 3, 4], 2, by decide⟩, ⟨[5, 6, 7], 3, by decide⟩⟩ (by simp))
    (.step (.drop [] _ _ _) (.step (.intoPhrase [] [] _ _) (.done _)))

/-- C98. With all their buffers the calls return what they return without them; the buffers of the result hold the phrase and the
entropy, and those of a copy the same. -/
theorem C98_buffers_hold_the_values (A : Allocator) (H : Hashes) (l : Language) :
    (∀ e, SameMnemonic (Mnemonic.fromEntropy H e l) (Mnemonic.fromEntropyMem A H e l)) ∧
    (∀ rng t, SameMnemonic (Mnemonic.new H rng t l) (Mnemonic.newMem A H rng t l)) ∧
    (∀ p, SameMnemonic (Mnemonic.fromPhrase H p l) (Mnemonic.fromPhraseMem A H p l)) ∧
    (∀ m : Mnemonic.Mem, (Mnemonic.cloneMem m).phrase.bytes = m.phrase.bytes ∧
      (Mnemonic.cloneMem m).entropy.bytes = m.entropy.bytes) ∧
    (∀ m : Mnemonic.Mem, (Mnemonic.intoPhraseHeap m : Heap Unit VecMem).out = .ok m.phrase) :=
  ⟨fun e => (fromEntropyMem_spec A H e l).2, fun rng t => (newMem_spec A H rng t l).2, (fromPhraseMem_spec A H · l),
    fun _ => ⟨VecMem.exact_bytes _, VecMem.exact_bytes _⟩, fun _ => rfl⟩

-- the buffers of the mnemonic of a BIP39 test vector
example : ∃ mem, (Mnemonic.fromEntropyMem plainAllocator Real.hashes vecEntropy .english).out = .ok mem ∧
    mem.phrase.bytes = utf8 vecPhrase ∧ mem.entropy.bytes = vecEntropy := by
  have key : ∀ e p, Mnemonic.fromEntropy Real.hashes e .english = .ok ⟨p, .english, e⟩ →
      ∃ mem, (Mnemonic.fromEntropyMem plainAllocator Real.hashes e .english).out = .ok mem ∧
        mem.phrase.bytes = utf8 p ∧ mem.entropy.bytes = e := by
    intro e p h
    have h' := (C98_buffers_hold_the_values plainAllocator Real.hashes .english).1 e
    rw [h] at h'
    generalize (Mnemonic.fromEntropyMem plainAllocator Real.hashes e .english) = x at h' ⊢
    obtain ⟨mem | _ | _, _⟩ := x
    exacts [⟨mem, rfl, h'⟩, h'.elim, h'.elim]
  exact key _ _ (by decide +kernel)

/-! ### C99 -/

/-- The bits of any number of list words with which the phrase starts are in the buffer that `phrase_to_entropy` returns, or in one that
it has given back. -/
theorem bits_left (A : Allocator) (H : Hashes) (p : Str) (l : Language) (known rest : List Str) (idx : List Nat)
    (hp : splitChar ' ' p = known ++ rest) (hk : WordsAt l.wordlist known idx) (hne : known ≠ []) :
    ∃ packed : Bytes, packed.length = 11 * known.length / 8 ∧ bitsOfBytes packed <+: idx.flatMap (bitsOfNat 11) ∧
      ((∃ mem, (Mnemonic.phraseToEntropyMem A H p l).out = .ok mem ∧ packed <+: mem.cells) ∨
        ∃ b ∈ (Mnemonic.phraseToEntropyMem A H p l).freed, packed <+: b) := by
  obtain ⟨k2, r2, hs2, hk2, hr2⟩ := Mnemonic.known_split l rest
  have hall : ∀ w ∈ known ++ k2, w ∈ l.wordlist := by
    intro w hw
    rcases List.mem_append.mp hw with h | h
    · exact wordsAt_mem hk w h
    · exact hk2 w h
  obtain ⟨idx2, hi2⟩ := wordsAt_exists l k2 hk2
  have hi : WordsAt l.wordlist (known ++ k2) (idx ++ idx2) := by
    unfold WordsAt at *
    rw [List.map_append, List.map_append, hk, hi2]
  obtain ⟨w, h1, h2, h3⟩ := Mnemonic.inner_of_words l (known ++ k2) _ hi
  have hpos := List.length_pos_iff.mpr hne
  have hlen : 11 * known.length / 8 ≤ w.inner.length := by
    rw [h2, List.length_append]
    omega
  have hne' : w.inner ≠ [] := by
    intro h0
    rw [h0] at h2
    simp at h2
    omega
  have htake : w.inner.take (11 * known.length / 8) <+: w.inner := List.take_prefix _ _
  refine ⟨w.inner.take (11 * known.length / 8), by rw [List.length_take]; omega, ?_, ?_⟩
  · rw [List.flatMap_append] at h3
    have h4 : bitsOfBytes (w.inner.take (11 * known.length / 8)) <+: bitsOfBytes w.inner := by
      rw [bitsOfBytes_take]
      exact List.take_prefix _ _
    refine List.prefix_of_prefix_length_le (h4.trans h3) (List.prefix_append _ _) ?_
    rw [bitsOfBytes_length, flatMap_bits_length, List.length_take, ← wordsAt_length hk]
    omega
  · rcases hr2 with rfl | ⟨bad, r, rfl, hb⟩
    · rw [List.append_nil] at hs2
      rw [hs2] at hp
      rw [← hp] at h1
      rcases Mnemonic.phraseToEntropyMem_known A H p l w h1 hne' with ⟨e, mem, fr, -, b, -, d⟩ | ⟨e, fr, -, b, c, hc, d⟩ | h
      · exact .inl ⟨mem, by rw [b], htake.trans d⟩
      · exact .inr ⟨c, by rw [b]; exact hc, htake.trans d⟩
      · exact absurd h (Mnemonic.phraseToEntropy_no_panic H p l)
    · obtain ⟨fr, -, b, c⟩ := Mnemonic.phraseToEntropyMem_unknown A H p l (known ++ k2) r bad w
        (by rw [hp, hs2, List.append_assoc]) h1 hb
      obtain ⟨d, hd, hpd⟩ := c hne'
      exact .inr ⟨d, by rw [b]; exact hd, htake.trans hpd⟩

/-- C99. `validate` leaves the bits of the words in memory given back unwiped, whatever its outcome: for any number of list words
with which the phrase starts, 11 bits for each, in whole bytes. -/
theorem C99_validate_leaves_the_words (A : Allocator) (H : Hashes) (p : Str) (l : Language) (known rest : List Str)
    (idx : List Nat) (hp : Pieces p (known ++ rest)) (hk : WordsAt (words l) known idx) (hne : known ≠ []) :
    ∃ packed : Bytes, packed.length = 11 * known.length / 8 ∧ bitsOfBytes packed <+: idx.flatMap (bitsOfNat 11) ∧
      ∃ b ∈ (Mnemonic.validateMem A H p l).freed, packed <+: b := by
  rw [← words_eq] at hk
  obtain ⟨packed, h1, h2, h3⟩ := bits_left A H p l known rest idx (pieces_iff.mp hp) hk hne
  refine ⟨packed, h1, h2, ?_⟩
  have hpos := List.length_pos_iff.mpr hne
  have hpk : packed ≠ [] := by
    intro h0
    rw [h0] at h1
    simp at h1
    omega
  unfold Mnemonic.validateMem
  rcases h3 with ⟨mem, e, h4⟩ | ⟨b, hb, h4⟩
  · have hc : mem.cells ≠ [] := by
      intro h0
      rw [h0] at h4
      exact hpk (List.prefix_nil.mp h4)
    refine ⟨mem.cells, ?_, h4⟩
    generalize Mnemonic.phraseToEntropyMem A H p l = x at *
    obtain ⟨o, fr⟩ := x
    cases e
    simp [Heap.mk_ok_bind, VecMem.free, Heap.give, hc]
  · refine ⟨b, ?_, h4⟩
    generalize Mnemonic.phraseToEntropyMem A H p l = x at *
    obtain ⟨o, fr⟩ := x
    cases o with
    | ok mem => exact List.mem_append_left _ hb
    | err e => exact hb
    | panic => exact hb

-- seven words of the list and a misspelt one
example : Pieces "zoo zoo zoo zoo zoo zoo zoo wrog".toList (List.replicate 7 "zoo".toList ++ ["wrog".toList]) ∧
    WordsAt (words .english) (List.replicate 7 "zoo".toList) (List.replicate 7 2047) :=
  ⟨by rw [pieces_iff]; decide +kernel, by unfold WordsAt; decide +kernel⟩

/-- C99. `validate` leaves the entropy of a valid phrase in memory given back unwiped. -/
theorem C99_validate_leaves_the_entropy (A : Allocator) (H : Hashes) (p : Str) (l : Language) (ws : List Str) (idx : List Nat)
    (e : Bytes) (hp : Pieces p ws) (hk : WordsAt (words l) ws idx) (he : Encodes (sha H) idx e) :
    (Mnemonic.validateMem A H p l).out = .ok () ∧ ∃ b ∈ (Mnemonic.validateMem A H p l).freed, e <+: b := by
  rw [← words_eq] at hk
  rw [pieces_iff] at hp
  have hok := (phraseToEntropy_ok_iff H p l e).mpr ⟨idx, by rw [hp]; exact hk, he⟩
  have hlen := encodes_length (fun b => (H.sha256 b).2) he
  have hne : e ≠ [] := by
    intro h0
    have h1 := he.1
    rw [h0] at hlen
    simp [sizes] at h1
    simp at hlen
    omega
  unfold Mnemonic.validateMem
  rcases Mnemonic.phraseToEntropyMem_out A H p l with ⟨e', mem, a, b, c⟩ | ⟨x, a, -⟩
  · rw [hok] at a
    cases a
    obtain ⟨b', hb', hp'⟩ := mem_give (ε := ErrorKind) c hne
    generalize Mnemonic.phraseToEntropyMem A H p l = x at *
    obtain ⟨o, fr⟩ := x
    cases b
    exact ⟨rfl, b', List.mem_append_right _ hb', hp'⟩
  · rw [hok] at a
    cases a

/-- A real phrase and the real SHA-256: the entropy is 16 times 255; the checksum follows it. -/
example : (Mnemonic.validateMem plainAllocator Real.hashes "zoo zoo zoo zoo zoo zoo zoo zoo zoo zoo zoo wrong".toList .english).freed =
    [List.replicate 16 255 ++ [80] ++ List.replicate 16 170] := by
  decide +kernel

/-- A misspelt word: the bits of the words before it, 11 for each. -/
example : (Mnemonic.validateMem plainAllocator Real.hashes "zoo zoo zoo zoo zoo zoo zoo wrog".toList .english).freed =
    [List.replicate 9 255 ++ List.replicate 24 170] := by
  decide +kernel

/-- C99. A failing `from_phrase` leaves the bits of the words as `validate` does. -/
theorem C99_from_phrase_leaves_the_words (A : Allocator) (H : Hashes) (p : Str) (l : Language) (vs known rest : List Str)
    (idx : List Nat) (x : ErrorKind) (hn : NormalWords p vs) (hp : Pieces (spaced vs) (known ++ rest))
    (hk : WordsAt (words l) known idx) (hne : known ≠ []) (hx : Mnemonic.fromPhrase H p l = .err x) :
    ∃ packed : Bytes, packed.length = 11 * known.length / 8 ∧ bitsOfBytes packed <+: idx.flatMap (bitsOfNat 11) ∧
      ∃ b ∈ (Mnemonic.fromPhraseMem A H p l).freed, packed <+: b := by
  rw [← words_eq] at hk
  rw [normalWords_iff] at hn
  have hnp : Mnemonic.normalisePhrase p = spaced vs := by rw [Mnemonic.normalisePhrase, hn, spaced_eq_join]
  rw [← hnp] at hp
  obtain ⟨packed, h1, h2, h3⟩ := bits_left A H (Mnemonic.normalisePhrase p) l known rest idx (pieces_iff.mp hp) hk hne
  refine ⟨packed, h1, h2, ?_⟩
  obtain ⟨v, fr, e1, -, -⟩ := joinNfkdMem_spec (ε := ErrorKind) A (splitWhitespace p)
  unfold Mnemonic.fromPhraseMem
  rw [e1, Heap.mk_ok_bind]
  unfold Mnemonic.fromPhrase at hx
  rcases Mnemonic.phraseToEntropyMem_out A H (Mnemonic.normalisePhrase p) l with ⟨e', mem, a, b, c⟩ | ⟨y, a, b⟩
  · simp [a] at hx
  · rcases h3 with ⟨mem, e, h4⟩ | ⟨c, hc, h4⟩
    · rw [e] at b
      cases b
    · refine ⟨c, ?_, h4⟩
      simp only
      rw [b]
      exact List.mem_append_right _ (List.mem_append_left _ hc)

-- a misspelt word after one of the list, with more white space than needed
example (H : Hashes) : NormalWords " zoo   wrog".toList ["zoo".toList, "wrog".toList] ∧
    Pieces (spaced ["zoo".toList, "wrog".toList]) (["zoo".toList] ++ ["wrog".toList]) ∧
    WordsAt (words .english) ["zoo".toList] [2047] ∧
    Mnemonic.fromPhrase H " zoo   wrog".toList .english = .err .invalidWord := by
  refine ⟨by rw [normalWords_iff]; decide +kernel, by rw [pieces_iff]; decide +kernel, by unfold WordsAt; decide +kernel, ?_⟩
  unfold Mnemonic.fromPhrase
  simp only
  rw [phraseToEntropy_badWord H (Mnemonic.normalisePhrase " zoo   wrog".toList) .english ⟨"wrog".toList, by decide +kernel, by rw [wordlist_english]; decide +kernel⟩]
  rfl

/-- C99. `from_phrase` leaves a long beginning of the phrase in memory given back unwiped, whatever its outcome, if vectors at most
double when they grow: of `n` bytes at least `n / 2 - w`, where no word of the input has more than `4 * w` bytes. -/
theorem C99_from_phrase_leaves_half_the_phrase (A : Allocator) (hA : A.Doubles) (H : Hashes) (p : Str) (l : Language)
    (raw vs : List Str) (w : Nat) (hraw : Spells p raw) (hn : NormalWords p vs) (hw : 4 ≤ w)
    (hsmall : ∀ word ∈ raw, (utf8Of word).length ≤ 4 * w) (hlong : 2 * w < (utf8Of (spaced vs)).length) :
    ∃ b ∈ (Mnemonic.fromPhraseMem A H p l).freed, ∃ k, (utf8Of (spaced vs)).take k <+: b ∧
      k ≤ (utf8Of (spaced vs)).length ∧ (utf8Of (spaced vs)).length ≤ 2 * k + 2 * w := by
  rw [normalWords_iff] at hn
  have hu : ∀ s, utf8Of s = utf8 s := fun _ => rfl
  simp only [hu] at *
  rw [spells_iff] at hraw
  obtain ⟨v, fr, e1, e2, e3⟩ := joinNfkdMem_spec (ε := ErrorKind) A (splitWhitespace p)
  rw [hn, ← spaced_eq_join] at e2
  rw [← hraw] at hsmall
  have hl : (utf8 (spaced vs)).length = v.len := by rw [← e2, VecMem.bytes_length]
  have hc := v.len_le
  rcases e3 w hA hw hsmall with h | ⟨b, hb, k, hk, hpre, hcap⟩
  · omega
  · refine ⟨b, ?_, k, by rw [← e2]; exact hpre, by omega, by omega⟩
    unfold Mnemonic.fromPhraseMem
    rw [e1, Heap.mk_ok_bind]
    exact List.mem_append_left _ hb

/-- The buffers that a misspelt phrase leaves: 8, 16 and 32 bytes of it, the bits of its first seven words, and the zeros of the last. -/
example : plainAllocator.Doubles ∧
    (Mnemonic.fromPhraseMem plainAllocator Real.hashes " zoo zoo zoo  zoo zoo zoo zoo zoo wrog".toList .english).freed =
    [asciiBytes "zoo zoo ", asciiBytes "zoo zoo zoo zoo ", asciiBytes "zoo zoo zoo zoo zoo zoo zoo zoo ",
      List.replicate 11 255 ++ List.replicate 22 170, List.replicate 64 0] :=
  ⟨fun _ _ => ⟨Nat.le_refl _, rfl⟩, by decide +kernel⟩

/-- C99. `Seed::new` leaves the phrase (in the bytes that are hashed), the password and the salt in memory given back unwiped. The seed itself is
in its own buffer only: what is given back does not depend on the hash function. -/
theorem C99_seed_leaves_phrase_and_password (A : Allocator) (m : Mnemonic) (pw : Str) :
    ∃ freed : List Bytes,
      (∀ H, ∃ v, (Seed.newMem A H m pw : Heap Unit VecMem) = ⟨.ok v, freed⟩ ∧ v.cells = v.bytes ∧
        v.bytes = (Seed.new H m pw).bytes) ∧
      (m.asBytes ≠ [] → ∃ b ∈ freed, m.asBytes <+: b) ∧
      (∃ b ∈ freed, asciiBytes "mnemonic" ++ utf8Of pw <+: b) ∧
      (∀ pw', IsNfkd pw pw' → ∃ b ∈ freed, asciiBytes "mnemonic" ++ utf8Of pw' <+: b) := by
  obtain ⟨fr, h1, h2, h3, h4⟩ := seedMem_spec A m pw
  have hutf : ∀ s : Str, utf8 (Seed.salt s) = asciiBytes "mnemonic" ++ utf8Of s := by
    intro s
    rw [Seed.salt, utf8_append]
    rfl
  refine ⟨fr, h1, h2, by rw [← hutf]; exact h3, ?_⟩
  intro pw' hpw
  have hs : nfkd (Seed.salt pw) = Seed.salt pw' := by
    rw [← isNfkd_iff.mp hpw]
    unfold Seed.salt
    apply nfkd_inert_append
    intro c hc
    apply inert_ascii
    revert c
    decide
  rw [hs] at h4
  rw [← hutf]
  exact h4 (by simp [Seed.salt])

/-- The phrase and the password after `Seed::new`. -/
example : (Seed.newMem plainAllocator Real.hashes ⟨"zoo zoo".toList, .english, []⟩ "pw".toList : Heap Unit VecMem).freed =
    [asciiBytes "mnemonic", asciiBytes "zoo zoo", asciiBytes "mnemonicpw" ++ List.replicate 6 170,
      asciiBytes "mnemonicpw" ++ List.replicate 6 170] := by
  decide +kernel

end Kms.Props
