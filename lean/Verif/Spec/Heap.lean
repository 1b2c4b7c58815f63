import Verif.Model.Heap
/-
Vocabulary of the properties about heap memory.
-/
namespace Kms

/-- `Vec` at most doubles its capacity, from 8 on, and the allocator never extends a buffer where it is. -/
def Allocator.Doubles (A : Allocator) : Prop :=
  ∀ cap need, A.grow cap need ≤ max 8 (max (2 * cap) need) ∧ A.inPlace cap need = false

namespace Spec
open Bip39

/-- The call has the outcome `r`, and its buffers hold the phrase and the entropy. -/
def SameMnemonic (r : Res ErrorKind Mnemonic) (x : Heap ErrorKind Mnemonic.Mem) : Prop :=
  match r, x.out with
  | .ok m, .ok mem => mem.phrase.bytes = utf8 m.phrase ∧ mem.entropy.bytes = m.entropy
  | .err e, .err e' => e = e'
  | .panic, .panic => True
  | _, _ => False

/-- A program that holds mnemonics (`ms`) and seeds (`ss`) does one thing with them; the last argument is the list of buffers that this
gives back to the allocator, as they are at that moment. -/
inductive HeapStep (A : Allocator) (H : Hashes) :
    List Mnemonic.Mem × List VecMem → List Mnemonic.Mem × List VecMem → List Bytes → Prop
  /-- `Mnemonic::from_entropy` -/
  | fromEntropy (ms ss) (e : Bytes) (l : Language) (m : Mnemonic.Mem) : (Mnemonic.fromEntropyMem A H e l).out = .ok m →
      HeapStep A H (ms, ss) (m :: ms, ss) (Mnemonic.fromEntropyMem A H e l).freed
  /-- a refused `Mnemonic::from_entropy` -/
  | fromEntropyErr (ms ss) (e : Bytes) (l : Language) (x : ErrorKind) : (Mnemonic.fromEntropyMem A H e l).out = .err x →
      HeapStep A H (ms, ss) (ms, ss) (Mnemonic.fromEntropyMem A H e l).freed
  /-- `Mnemonic::new` -/
  | new (ms ss) (rng : (n : Nat) → ByteArr n) (t : MnemonicType) (l : Language) (m : Mnemonic.Mem) :
      (Mnemonic.newMem A H rng t l).out = .ok m →
      HeapStep A H (ms, ss) (m :: ms, ss) (Mnemonic.newMem A H rng t l).freed
  /-- `Mnemonic::clone` -/
  | clone (ms ss) (m : Mnemonic.Mem) : m ∈ ms → HeapStep A H (ms, ss) (Mnemonic.cloneMem m :: ms, ss) []
  /-- a mnemonic goes out of scope -/
  | drop (before after ss) (m : Mnemonic.Mem) :
      HeapStep A H (before ++ m :: after, ss) (before ++ after, ss) (Mnemonic.dropMem (ε := Unit) m).freed
  /-- `Mnemonic::into_phrase`; the string is the caller's -/
  | intoPhrase (before after ss) (m : Mnemonic.Mem) :
      HeapStep A H (before ++ m :: after, ss) (before ++ after, ss) (Mnemonic.intoPhraseHeap (ε := Unit) m).freed
  /-- `Seed::clone` -/
  | cloneSeed (ms ss) (s : VecMem) : s ∈ ss → HeapStep A H (ms, ss) (ms, Seed.cloneMem s :: ss) []
  /-- a seed goes out of scope -/
  | dropSeed (ms before after) (s : VecMem) :
      HeapStep A H (ms, before ++ s :: after) (ms, before ++ after) (Seed.dropMem (ε := Unit) s).freed

/-- Any number of such steps. -/
inductive HeapSteps (A : Allocator) (H : Hashes) :
    List Mnemonic.Mem × List VecMem → List Mnemonic.Mem × List VecMem → List Bytes → Prop
  | done (s) : HeapSteps A H s s []
  | step {s t u fr gr} : HeapStep A H s t fr → HeapSteps A H t u gr → HeapSteps A H s u (fr ++ gr)

end Spec
end Kms
