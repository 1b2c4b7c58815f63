import Verif.Model.Leak
/-
Vocabulary of C117: outcomes of the same kind, and key types whose methods show nothing of the key.
-/
namespace Kms.Spec
open Kms.Bip32

/-- Both `Ok`, both the same error, or both a panic. -/
inductive SameKind {ε α β : Type} : Res ε α → Res ε β → Prop
  | ok (a : α) (b : β) : SameKind (.ok a) (.ok b)
  | err (e : ε) : SameKind (.err e) (.err e)
  | panic : SameKind .panic .panic

/-- What the methods of the key show does not depend on the key or the other arguments; for `derive_child` it may depend on
whether it succeeds, fails or panics. -/
structure Discreet {K : KeyImpl} (V : KeyView K) : Prop where
  toBytes : ∀ k k', V.toBytes k = V.toBytes k'
  publicKey : ∀ k k', V.publicKey k = V.publicKey k'
  pubToBytes : ∀ p p', V.pubToBytes p = V.pubToBytes p'
  fingerprint : ∀ p p', V.fingerprint p = V.fingerprint p'
  deriveChild : ∀ k b k' b', SameKind (K.deriveChild k b) (K.deriveChild k' b') → V.deriveChild k b = V.deriveChild k' b'

end Kms.Spec
