import Verif.Model.Mnemonic
/-
The heap buffers behind the values of src/bip39: which buffers a call obtains, what it writes into them, and what they
hold when they are given back to the allocator.  `Verif.Model.Mnemonic` has the values only.
Taken from the standard library: `Vec` and `String` write in place while the capacity suffices, and otherwise move to a
larger buffer, unless the allocator can extend the old one, and give the old one back as it is; dropping them gives the buffer back as it is.  `Zeroizing` and the `Drop`
of `Seed` overwrite the buffer first.  Not modelled: the stack, registers, and what the hash functions allocate (they use
arrays on the stack).
-/
namespace Kms

/-- The allocator and the growth policy of `Vec`: the new capacity when `need` bytes do not fit a buffer of capacity `cap`,
whether `realloc` extends that buffer where it is, and what fresh memory happens to contain.
Bookkeeping for the buffers of src/bip39/mnemonic.rs:94-221, src/bip39/util.rs:103-148, src/bip39/crypto.rs:24-43,
src/bip39/seed.rs:32-38. -/
structure Allocator where
  grow : (cap need : Nat) → Nat
  fits : ∀ cap need, need ≤ grow cap need
  inPlace : (cap need : Nat) → Bool
  fresh : (n : Nat) → ByteArr n

/-- A call: its outcome and the buffers that it gives back to the allocator, oldest first, as they are at that moment.
Bookkeeping for the buffers of src/bip39/mnemonic.rs:94-221, src/bip39/util.rs:103-148, src/bip39/crypto.rs:24-43,
src/bip39/seed.rs:32-38. -/
structure Heap (ε α : Type) where
  out : Res ε α
  freed : List Bytes

namespace Heap

/-- `?`-style sequencing; what is freed after a failure is written out where it happens.
Bookkeeping for the buffers of src/bip39/mnemonic.rs:94-221, src/bip39/util.rs:103-148, src/bip39/crypto.rs:24-43,
src/bip39/seed.rs:32-38. -/
def bind {ε α β : Type} (x : Heap ε α) (f : α → Heap ε β) : Heap ε β :=
  match x.out with
  | .ok a => ⟨(f a).out, x.freed ++ (f a).freed⟩
  | .err e => ⟨.err e, x.freed⟩
  | .panic => ⟨.panic, x.freed⟩

/-- Bookkeeping for the buffers of src/bip39/mnemonic.rs:94-221, src/bip39/util.rs:103-148, src/bip39/crypto.rs:24-43,
src/bip39/seed.rs:32-38. -/
instance {ε : Type} : Monad (Heap ε) where
  pure a := ⟨.ok a, []⟩
  bind := bind

/-- A step that does not touch the heap.
Bookkeeping for the buffers of src/bip39/mnemonic.rs:94-221, src/bip39/util.rs:103-148, src/bip39/crypto.rs:24-43,
src/bip39/seed.rs:32-38. -/
def lift {ε α : Type} (r : Res ε α) : Heap ε α := ⟨r, []⟩

/-- Giving a buffer back; a vector without capacity has none.
Bookkeeping for the buffers of src/bip39/mnemonic.rs:94-221, src/bip39/util.rs:103-148, src/bip39/crypto.rs:24-43,
src/bip39/seed.rs:32-38. -/
def give {ε : Type} (cells : Bytes) : Heap ε Unit := ⟨.ok (), if cells = [] then [] else [cells]⟩

end Heap

namespace VecMem

/-- Dropping a `Vec<u8>` or `String`.
Bookkeeping for the buffers of src/bip39/mnemonic.rs:94-221, src/bip39/util.rs:103-148, src/bip39/crypto.rs:24-43,
src/bip39/seed.rs:32-38. -/
def free {ε : Type} (v : VecMem) : Heap ε Unit := Heap.give v.cells

/-- Dropping a `Zeroizing<Vec<u8>>` or `Zeroizing<String>`.
Bookkeeping for the buffers of src/bip39/mnemonic.rs:94-221, src/bip39/util.rs:103-148, src/bip39/crypto.rs:24-43,
src/bip39/seed.rs:32-38. -/
def freeZeroizing {ε : Type} (v : VecMem) : Heap ε Unit := Heap.give v.zeroize

/-- `with_capacity(n)`.  Used in src/bip39/util.rs:16, 110-122. -/
def withCapacity (A : Allocator) (n : Nat) : VecMem := ⟨(A.fresh n).1, 0, Nat.zero_le _⟩

/-- A vector whose capacity is its length: `to_vec`, `clone`, `vec![0; n]`.
Used in src/bip39/mnemonic.rs:98 and src/bip39/crypto.rs:26, 38. -/
def exact (bytes : Bytes) : VecMem := ⟨bytes, bytes.length, Nat.le_refl _⟩

/-- Moving to a larger buffer.  Used in src/bip39/util.rs:18-23, 44-53, 131, 143. -/
def moved (A : Allocator) (v : VecMem) (need : Nat) (h : v.len ≤ need) : VecMem :=
  ⟨v.bytes ++ ((A.fresh (A.grow v.cells.length need)).1.drop v.len), v.len, by
    have := A.fits v.cells.length need
    have := (A.fresh (A.grow v.cells.length need)).2
    have := v.len_le
    simp [bytes]
    omega⟩

/-- Extending the buffer where it is.  Used in src/bip39/util.rs:18-23, 44-53, 131, 143. -/
def extended (A : Allocator) (v : VecMem) (need : Nat) : VecMem :=
  ⟨v.cells ++ ((A.fresh (A.grow v.cells.length need)).1.drop v.cells.length), v.len, by
    have := v.len_le
    simp
    omega⟩

/-- `reserve(extra)`.  Used in src/bip39/util.rs:18-23, 44-53, 131, 143. -/
def reserve {ε : Type} (A : Allocator) (v : VecMem) (extra : Nat) : Heap ε VecMem :=
  if v.len + extra ≤ v.cells.length then pure v
  else if A.inPlace v.cells.length (v.len + extra) then pure (v.extended A (v.len + extra))
  else do
    v.free
    pure (v.moved A (v.len + extra) (Nat.le_add_right _ _))

/-- Writing after the elements, where there is room.  Used in src/bip39/util.rs:18-23, 44-53, 131, 143. -/
def write (v : VecMem) (bs : Bytes) : VecMem :=
  if h : v.len + bs.length ≤ v.cells.length then
    ⟨v.bytes ++ bs ++ v.cells.drop (v.len + bs.length), v.len + bs.length, by
      have := v.len_le
      simp [bytes]
      omega⟩
  else v

/-- `Vec::push` (one byte), `extend_from_slice`, `String::push_str`, `String::push` (the bytes of one character).
Used in src/bip39/util.rs:18-23, 44-53, 131, 143. -/
def append {ε : Type} (A : Allocator) (v : VecMem) (bs : Bytes) : Heap ε VecMem := do
  let v ← v.reserve A bs.length
  pure (v.write bs)

/-- One `append` after the other.  Used in src/bip39/util.rs:18-23, 44-53, 131, 143. -/
def appendEach {ε : Type} (A : Allocator) : VecMem → List Bytes → Heap ε VecMem
  | v, [] => pure v
  | v, bs :: rest => do
    let v ← v.append A bs
    appendEach A v rest

/-- `Vec::truncate`.  Used in src/bip39/mnemonic.rs:211. -/
def truncate (v : VecMem) (n : Nat) : VecMem := ⟨v.cells, min n v.len, Nat.le_trans (Nat.min_le_right _ _) v.len_le⟩

end VecMem

namespace Bip39
open VecMem

/-- The characters of a string, each as its UTF-8 bytes.  Used in src/bip39/util.rs:52. -/
def charBytes (s : Str) : List Bytes := s.map String.utf8EncodeChar

/-- src/bip39/util.rs:50-54 `write_into` of a normalised word: `String::extend`, which reserves the lower bound of the iterator
(a quarter of the bytes of the word as it was given, rounded up) and then pushes character by character. -/
def extendNfkd {ε : Type} (A : Allocator) (buffer : VecMem) (word : Str) : Heap ε VecMem := do
  let buffer ← buffer.reserve A (((utf8 word).length + 3) / 4)
  buffer.appendEach A (charBytes (nfkd word))

/-- src/bip39/util.rs:20-23 over normalised words -/
def joinRestNfkd {ε : Type} (A : Allocator) : VecMem → List Str → Heap ε VecMem
  | buffer, [] => pure buffer
  | buffer, word :: rest => do
    let buffer ← buffer.append A (utf8 [' '])
    let buffer ← extendNfkd A buffer word
    joinRestNfkd A buffer rest

/-- src/bip39/util.rs:4-26 `join(" ")` over `split_whitespace().map(nfkd)`; the lower bound of its `size_hint` is 0. -/
def joinNfkdMem {ε : Type} (A : Allocator) : List Str → Heap ε VecMem
  | [] => pure .empty
  | first :: rest => do
    let buffer := VecMem.withCapacity A (0 * (10 + 1))
    let buffer ← extendNfkd A buffer first
    joinRestNfkd A buffer rest

/-- src/bip39/util.rs:4-26 `join(" ")` over the words of the bit iterator: the first word is taken before `size_hint`
(src/bip39/util.rs:199-206) is asked. -/
def joinBitsMem (A : Allocator) (wl : WordList) (it : BitIter) : Heap ErrorKind VecMem :=
  match it.next with
  | none => pure .empty
  | some (v, it') => do
    let first ← Heap.lift (Language.getWord wl v)
    let lower := it'.source.length * 8 / 11
    let buffer := VecMem.withCapacity A (lower * (10 + 1))
    let buffer ← buffer.append A (utf8 first)
    let rest ← Heap.lift (getWords wl it'.toList)
    buffer.appendEach A (rest.flatMap (fun w => [utf8 [' '], utf8 w]))

namespace Mnemonic

/-- src/bip39/mnemonic.rs:94-124 `from_entropy_unchecked`; `entropy.into()` copies a slice to a vector of its length and takes
the vector of `gen_random_bytes`, which has its length as well, as it is. -/
def fromEntropyUncheckedMem (A : Allocator) (H : Hashes) (entropy : Bytes) (lang : Language) : Heap ErrorKind Mem := do
  let entropyMem := VecMem.exact entropy
  let checksumByte := H.sha256FirstByte entropyMem.bytes
  let phrase ← joinBitsMem A lang.wordlist (BitIter.new (entropyMem.bytes ++ [checksumByte]))
  pure ⟨phrase, entropyMem⟩

/-- src/bip39/mnemonic.rs:87-92 `from_entropy` -/
def fromEntropyMem (A : Allocator) (H : Hashes) (entropy : Bytes) (lang : Language) : Heap ErrorKind Mem := do
  let _ ← Heap.lift (MnemonicType.forKeySize (usizeMul entropy.length 8))
  fromEntropyUncheckedMem A H entropy lang

/-- src/bip39/mnemonic.rs:66-70 `new` -/
def newMem (A : Allocator) (H : Hashes) (rng : (n : Nat) → ByteArr n) (mtype : MnemonicType) (lang : Language) :
    Heap ErrorKind Mem :=
  fromEntropyUncheckedMem A H (rng (mtype.entropyBits / 8)).1 lang

/-- src/bip39/mnemonic.rs:39 `derive(Clone)` -/
def cloneMem (m : Mem) : Mem := ⟨.exact m.phrase.bytes, .exact m.entropy.bytes⟩

/-- Dropping a mnemonic (src/bip39/mnemonic.rs:41,43: both fields are `Zeroizing`). -/
def dropMem {ε : Type} (m : Mem) : Heap ε Unit := do
  m.phrase.freeZeroizing
  m.entropy.freeZeroizing

/-- src/bip39/mnemonic.rs:229-233 `into_phrase`: the string, whose buffer now belongs to the caller. -/
def intoPhraseHeap {ε : Type} (m : Mem) : Heap ε VecMem := do
  dropMem { m with phrase := .empty }
  pure m.phrase

/-- src/bip39/mnemonic.rs:194-196: each word is pushed to the bit writer, whose vector is at `mem`; an unknown word returns
and drops the bit writer.  The bytes that `push` adds are those of `BitWriter.push`. -/
def pushWordsMem (A : Allocator) (m : WordMap) : List Str → BitWriter → VecMem → Heap ErrorKind (BitWriter × VecMem)
  | [], w, mem => pure (w, mem)
  | word :: rest, w, mem =>
    match Language.getBits m word with
    | .ok b => do
      let mem ← mem.appendEach A (((w.push b).inner.drop w.inner.length).map ([·]))
      pushWordsMem A m rest (w.push b) mem
    | .err e => do
      mem.free
      Heap.lift (.err e)
    | .panic => Heap.lift .panic

/-- src/bip39/util.rs:141-147 `into_bytes`: one more byte if bits are pending. -/
def intoBytesMem (A : Allocator) (bits : BitWriter) (mem : VecMem) : Heap ErrorKind VecMem :=
  if bits.offset ≠ 0 then mem.append A (bits.intoBytes.drop bits.inner.length) else pure mem

/-- src/bip39/mnemonic.rs:188-221 `phrase_to_entropy` -/
def phraseToEntropyMem (A : Allocator) (H : Hashes) (phrase : Str) (lang : Language) : Heap ErrorKind VecMem := do
  let (bits, mem) ← pushWordsMem A lang.wordmap (splitChar ' ' phrase) BitWriter.withCapacity (VecMem.withCapacity A (264 / 8))
  match MnemonicType.forWordCount (bits.len / 11) with
  | .err e => do
    mem.free
    Heap.lift (.err e)
  | .panic => Heap.lift .panic
  | .ok mtype =>
    if bits.len ≠ mtype.totalBits then Heap.lift .panic else do
    let mem ← intoBytesMem A bits mem
    let entropyBytes := mtype.entropyBits / 8
    let last ← Heap.lift (index mem.bytes entropyBytes)
    let actualChecksum ← Heap.lift (checksum' last mtype.checksumBits)
    let mem := mem.truncate entropyBytes
    let checksumByte := H.sha256FirstByte mem.bytes
    let expectedChecksum ← Heap.lift (checksum' checksumByte mtype.checksumBits)
    if actualChecksum ≠ expectedChecksum then do
      mem.free
      Heap.lift (.err .invalidChecksum)
    else pure mem

/-- src/bip39/mnemonic.rs:143-161 `from_phrase`; when `phrase_to_entropy` fails, the phrase is dropped, and it is `Zeroizing`. -/
def fromPhraseMem (A : Allocator) (H : Hashes) (phrase : Str) (lang : Language) : Heap ErrorKind Mem := do
  let phraseMem ← joinNfkdMem A (splitWhitespace phrase)
  let r := phraseToEntropyMem A H (normalisePhrase phrase) lang
  match r.out with
  | .ok entropy => ⟨.ok ⟨phraseMem, entropy⟩, r.freed⟩
  | .err e => do
    let _ ← (⟨.ok (), r.freed⟩ : Heap ErrorKind Unit)
    phraseMem.freeZeroizing
    Heap.lift (.err e)
  | .panic => ⟨.panic, r.freed⟩

/-- src/bip39/mnemonic.rs:177-181 `validate` drops the vector that `phrase_to_entropy` returns. -/
def validateMem (A : Allocator) (H : Hashes) (phrase : Str) (lang : Language) : Heap ErrorKind Unit := do
  let entropy ← phraseToEntropyMem A H phrase lang
  entropy.free

/-- src/bip39/mnemonic.rs:262-273 `as_bytes`: a copy of the phrase, or its characters in GB18030, fed to a new vector after the encoder
has reserved the length of its input. -/
def asBytesMem {ε : Type} (A : Allocator) (m : Mnemonic) : Heap ε VecMem :=
  if m.lang = .chineseSimplified then do
    let bytes := VecMem.empty
    let bytes ← bytes.reserve A (utf8 m.phrase).length
    bytes.appendEach A (m.phrase.map gb18030Char)
  else pure (.exact (utf8 m.phrase))

end Mnemonic

namespace Seed

/-- src/bip39/seed.rs:32-38 `Seed::new` and src/bip39/crypto.rs:37-43 `pbkdf2`: the salt (`format!` starts with twice the length
of its literal text), its normal form (`to_string` pushes character by character), the bytes of the mnemonic, dropped at the
end of the statement, and the vector of the seed. -/
def newMem {ε : Type} (A : Allocator) (H : Hashes) (mnemonic : Mnemonic) (password : Str) : Heap ε VecMem := do
  let saltMem ← (VecMem.withCapacity A 16).append A (utf8 (salt []))
  let saltMem ← saltMem.append A (utf8 password)
  let normalizedSalt ← VecMem.empty.appendEach A (charBytes (nfkd (salt password)))
  let input ← mnemonic.asBytesMem A
  let bytes := VecMem.exact (H.pbkdf2Body 0 input.bytes normalizedSalt.bytes 2048)
  input.free
  normalizedSalt.free
  saltMem.free
  pure bytes

/-- src/bip39/seed.rs:23 `derive(Clone)` -/
def cloneMem (s : VecMem) : VecMem := .exact s.bytes

/-- src/bip39/seed.rs:86-90 `Drop` -/
def dropMem {ε : Type} (s : VecMem) : Heap ε Unit := s.freeZeroizing

end Seed
end Bip39
end Kms
