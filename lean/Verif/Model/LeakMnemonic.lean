import Verif.Model.Leak
import Verif.Model.Mnemonic
/-
What someone who sees branches and memory accesses (as in Verif.Model.Leak) sees of making a mnemonic from entropy and of
validating a phrase.  The values are those of `Verif.Model.Mnemonic`.
Simplifications: arithmetic on machine integers takes the same time whatever the values; SHA-256 shows the length of its input
only; what one lookup in a word map shows is a parameter (it depends on the hash function of `HashMap`); comparisons of capacity
with length in `Vec::push` and `String::push_str` are left out (they depend on lengths that are shown anyway, and C98 says that
`from_entropy` never has to grow).
-/
namespace Kms.Bip39

namespace BitIter

/-- src/bip39/util.rs:184-189: the loop of `next`.  `total` is the length of the whole source, so that the byte read is number
`total - |remaining|`.  Each round shows the loop condition, the byte read and the branch of `?`. -/
def fillSeen (total : Nat) : Bytes → Nat → BitVec 64 → Option BitIter × List Ev
  | [], read, buffer =>
    if read < 11 then (none, [.branch true, .branch false]) else (some { source := [], read, buffer }, [.branch false])
  | b :: rest, read, buffer =>
    if read < 11 then
      let r := fillSeen total rest (read + 8) (buffer ||| ((b.toBitVec.setWidth 64) <<< (64 - (read + 8))))
      (r.1, [.branch true, .load "entropy" (total - (b :: rest).length), .branch true] ++ r.2)
    else (some { source := b :: rest, read, buffer }, [.branch false])

/-- src/bip39/util.rs:183-197 `next` -/
def nextSeen (total : Nat) (it : BitIter) : Option (Bits11 × BitIter) × List Ev :=
  let r := fillSeen total it.source it.read it.buffer
  (match r.1 with
    | none => none
    | some it' => some ((it'.buffer >>> (64 - 11)).setWidth 16, { it' with buffer := it'.buffer <<< 11, read := it'.read - 11 }),
   r.2)

end BitIter

/-- `n` bytes are written to the phrase, from byte `i` on.  Used in src/bip39/util.rs:18-23. -/
def phraseStores (i n : Nat) : List Ev := (List.range n).map fun j => .store "phrase" (i + j)

/-- src/bip39/language.rs:24-26 `get_word`: the bounds check, and the entry that is read. -/
def getWordSeen (wl : WordList) (bits : Bits11) : Seen ErrorKind Str :=
  match wl[bits.toNat]? with
  | some w => ⟨.ok w, [.branch true, .load "wordlist" bits.toNat]⟩
  | none => ⟨.panic, [.branch false]⟩

/-- src/bip39/util.rs:21-24: the loop of `join`; `calls` as in `BitIter.toListFuel`. -/
def joinRestSeen (total : Nat) (wl : WordList) : Nat → BitIter → Str → Seen ErrorKind Str
  | 0, _, buffer => pure buffer
  | calls + 1, it, buffer => do
    Seen.emit (it.nextSeen total).2
    match (it.nextSeen total).1 with
    | none => pure buffer
    | some (bits, it') => do
      let word ← getWordSeen wl bits
      Seen.emit (phraseStores (utf8 buffer).length 1 ++ phraseStores ((utf8 buffer).length + 1) (utf8 word).length)
      joinRestSeen total wl calls it' ((buffer ++ [' ']) ++ word)

/-- src/bip39/util.rs:4-26 `join(" ")` over the words of the bit iterator. -/
def joinSeen (total : Nat) (wl : WordList) : Nat → BitIter → Seen ErrorKind Str
  | 0, _ => pure []
  | calls + 1, it => do
    Seen.emit (it.nextSeen total).2
    match (it.nextSeen total).1 with
    | none => pure []
    | some (bits, it') => do
      let word ← getWordSeen wl bits
      Seen.emit (phraseStores 0 (utf8 word).length)
      joinRestSeen total wl calls it' word

namespace Mnemonic

/-- src/bip39/mnemonic.rs:94-124 `from_entropy_unchecked` -/
def fromEntropyUncheckedSeen (H : Hashes) (entropy : Bytes) (lang : Language) : Seen ErrorKind Mnemonic := do
  Seen.emit [.hash entropy.length]
  let checksumByte := H.sha256FirstByte entropy
  let it := BitIter.new (entropy ++ [checksumByte])
  let phrase ← joinSeen it.source.length lang.wordlist (it.source.length * 8 + it.read) it
  pure { phrase, lang, entropy }

/-- src/bip39/mnemonic.rs:87-92 `from_entropy` -/
def fromEntropySeen (H : Hashes) (entropy : Bytes) (lang : Language) : Seen ErrorKind Mnemonic := do
  let _ ← Seen.tryOp (MnemonicType.forKeySize (usizeMul entropy.length 8))
  fromEntropyUncheckedSeen H entropy lang

/-- src/bip39/mnemonic.rs:66-70 `new` -/
def newSeen (H : Hashes) (rng : (n : Nat) → ByteArr n) (mtype : MnemonicType) (lang : Language) : Seen ErrorKind Mnemonic :=
  fromEntropyUncheckedSeen H (rng (mtype.entropyBits / 8)).1 lang

end Mnemonic

namespace BitWriter

/-- src/bip39/util.rs:130-134: the flushing loop. -/
def flushSeen : Nat → BitVec 32 → Bytes → BitWriter × List Ev
  | offset + 8, remainder, inner =>
    let r := flushSeen offset (remainder <<< 8) (inner ++ [UInt8.ofBitVec ((remainder >>> 24).setWidth 8)])
    (r.1, [.branch true, .store "bits" inner.length] ++ r.2)
  | offset, remainder, inner => ({ offset, remainder, inner }, [.branch false])

/-- src/bip39/util.rs:124-135 `push` -/
def pushSeen (w : BitWriter) (source : Bits11) : BitWriter × List Ev :=
  flushSeen (w.offset + 11) (w.remainder ||| (((source.setWidth 32) <<< (32 - 11)) >>> w.offset)) w.inner

/-- src/bip39/util.rs:141-147 `into_bytes` -/
def intoBytesSeen (w : BitWriter) : Bytes × List Ev :=
  if w.offset ≠ 0 then
    (w.inner ++ [UInt8.ofBitVec ((w.remainder >>> 24).setWidth 8)], [.branch true, .store "bits" w.inner.length])
  else (w.inner, [.branch false])

end BitWriter

/-- src/bip39/mnemonic.rs:194-196: the loop over the pieces of the phrase.  `split` reads each byte of the piece and the space or
the end after it; `look word` is what the lookup shows. -/
def pushWordsSeen (look : Str → List Ev) (m : WordMap) : Nat → List Str → BitWriter → Seen ErrorKind BitWriter
  | _, [], w => do
    Seen.emit [.branch false]
    pure w
  | at_, word :: rest, w => do
    Seen.emit ([.branch true] ++ (List.range ((utf8 word).length + 1)).map (fun j => .load "phrase" (at_ + j)) ++ look word)
    let b ← Seen.tryOp (Language.getBits m word)
    Seen.emit (w.pushSeen b).2
    pushWordsSeen look m (at_ + (utf8 word).length + 1) rest (w.pushSeen b).1

namespace Mnemonic

/-- src/bip39/mnemonic.rs:188-221 `phrase_to_entropy` -/
def phraseToEntropySeen (look : Str → List Ev) (H : Hashes) (phrase : Str) (lang : Language) : Seen ErrorKind Bytes := do
  let bits ← pushWordsSeen look lang.wordmap 0 (splitChar ' ' phrase) BitWriter.withCapacity
  let mtype ← Seen.tryOp (MnemonicType.forWordCount (bits.len / 11))
  Seen.emit [.branch (bits.len == mtype.totalBits)]
  if bits.len ≠ mtype.totalBits then ⟨.panic, []⟩ else do
  Seen.emit bits.intoBytesSeen.2
  let entropy := bits.intoBytesSeen.1
  let entropyBytes := mtype.entropyBits / 8
  Seen.emit [.branch (entropyBytes < entropy.length), .load "bits" entropyBytes]
  let last ← ⟨index entropy entropyBytes, []⟩
  let actualChecksum ← ⟨checksum' last mtype.checksumBits, []⟩
  let entropy := entropy.take entropyBytes
  Seen.emit [.hash entropy.length]
  let checksumByte := H.sha256FirstByte entropy
  let expectedChecksum ← ⟨checksum' checksumByte mtype.checksumBits, []⟩
  Seen.emit [.branch (actualChecksum != expectedChecksum)]
  if actualChecksum ≠ expectedChecksum then ⟨.err .invalidChecksum, []⟩
  else pure entropy

/-- src/bip39/mnemonic.rs:177-181 `validate` -/
def validateSeen (look : Str → List Ev) (H : Hashes) (phrase : Str) (lang : Language) : Seen ErrorKind Unit := do
  let r := phraseToEntropySeen look H phrase lang
  Seen.emit r.view
  let _ ← Seen.tryOp r.out
  pure ()

end Mnemonic
end Kms.Bip39
