import Verif.Model.Api
import Verif.Spec.Mnemonic
import Verif.Spec.Bip32
import Verif.Spec.ExtendedKey
import Verif.Spec.Ecdsa
import Verif.Proofs.Keys
import Verif.Proofs.Ecdsa
/-
What a program may rely on for the objects it holds (C123), in the vocabulary of the other specifications.
-/
namespace Kms.Spec.Api
open Kms.Api Kms.Bip32 Kms.Bip39
open Kms.Spec.Bip32 (I Ipub IL parse256)
open Kms.Spec.Ecdsa (Unusable candidate)
open Kms.Spec.Secp (Point G n p HasCoords)

/-- A text of four letters. -/
def FourLetters (s : Str) : Prop := s.length = 4 ∧ ∀ c ∈ s, Letter c

/-- An object is what it should be: a mnemonic is a BIP39 sentence of its language with the right checksum; a seed has 64 bytes;
a private key is a number in [1, n - 1]; a public key is a finite point of the curve's group; a prefix has a
text of four letters. -/
def Valid (H : Hashes) : Obj → Prop
  | .mnemonic m => ∃ ws idx, WordsAt (words m.lang) ws idx ∧ Encodes (sha H) idx m.entropy ∧ m.phrase = spaced ws
  | .seed s => s.bytes.length = 64
  | .xprv k => 1 ≤ parse256 k.toBytes.1 ∧ parse256 k.toBytes.1 ≤ n - 1
  | .xpub k => ∃ d, 1 ≤ d ∧ d ≤ n - 1 ∧ HasCoords (d • G) k.publicKey.x k.publicKey.y
  | .prefix p => ∃ s, FourLetters s ∧ p.asStr = .ok s
  | .extendedKey e => ∃ s, FourLetters s ∧ e.pfx.asStr = .ok s

/-- Some call in `log` brought the mnemonic `m` in. -/
def ImportsMnemonic (E : Env) (log : List Call) (m : Mnemonic) : Prop :=
  (∃ rng t l, .mnemonicNew rng t l ∈ log ∧ Mnemonic.new E.H rng t l = .ok m) ∨
  (∃ e l, .mnemonicFromEntropy e l ∈ log ∧ Mnemonic.fromEntropy E.H e l = .ok m) ∨
  (∃ s l, .mnemonicFromPhrase s l ∈ log ∧ Mnemonic.fromPhrase E.H s l = .ok m)

/-- Some call in `log` brought the private key `k` in: as the master key of a seed, from text, or from a decoded key. -/
def ImportsPrivate (E : Env) (log : List Call) (k : XPrv) : Prop :=
  (∃ seed, (.xprvNew seed ∈ log ∨ ∃ path, .xprvNewFromPath seed path ∈ log) ∧ XPrv.new E.H seed = .ok k) ∨
  (∃ s, .xprvFromStr s ∈ log ∧ XPrv.fromStr E.H s = .ok k) ∨
  (∃ e, .xprvTryFrom e ∈ log ∧ XPrv.tryFrom e = .ok k)

/-- Some call in `log` brought the public key `k` in: from text or from a decoded key. -/
def ImportsPublic (E : Env) (log : List Call) (k : XPub) : Prop :=
  (∃ s, .xpubFromStr s ∈ log ∧ XPub.fromStr E.H s = .ok k) ∨
  (∃ e, .xpubTryFrom e ∈ log ∧ XPub.tryFrom e = .ok k)

/-- A private key that was brought in, or a descendant of one. -/
def PrivateOrigin (E : Env) (log : List Call) (k : XPrv) : Prop :=
  ∃ root path, ImportsPrivate E log root ∧ root.deriveFromPath E.H path = .ok k

/-- Where an object comes from.  A seed comes from a mnemonic that was brought in and a password that was given; a private key is a
descendant of one that was brought in; a public key belongs to such a private key, or is a descendant,
along numbers below 2^31, of a public key that was brought in. -/
def Origin (E : Env) (log : List Call) : Obj → Prop
  | .mnemonic m => ImportsMnemonic E log m
  | .seed s => ∃ m password, .seedNew m password ∈ log ∧ ImportsMnemonic E log m ∧ s = Seed.new E.H m password
  | .xprv k => PrivateOrigin E log k
  | .xpub k => (∃ k', PrivateOrigin E log k' ∧ k = k'.publicKey) ∨
      ∃ root path, ImportsPublic E log root ∧ (∀ i ∈ path.iter, i.n.toNat < 2 ^ 31) ∧ root.deriveFromPath E.H path = .ok k
  | .prefix _ => True
  | .extendedKey _ => True

/-- The child of a private key for which BIP32 has no key: I_L is 0 or at least n. -/
def BadPrivateChild (H : Hashes) (k : XPrv) (i : ChildNumber) : Prop :=
  let J := I (specHash H) k.attrs.chainCode.1 k.privateKey.k i.n.toNat
  k.attrs.depth.toNat < 255 ∧ (IL J = 0 ∨ n ≤ IL J)

/-- The same for a public key, which is the point `Q`, and a number below 2^31. -/
def BadPublicChild (H : Hashes) (k : XPub) (i : ChildNumber) : Prop :=
  ∃ Q, HasCoords Q k.publicKey.x k.publicKey.y ∧
    let J := Ipub (specHash H) k.attrs.chainCode.1 Q i.n.toNat
    i.n.toNat < 2 ^ 31 ∧ k.attrs.depth.toNat < 255 ∧ (IL J = 0 ∨ n ≤ IL J)

/-- Such a child is met on a path. -/
def BadPrivatePath (H : Hashes) (k : XPrv) (path : DerivationPath) : Prop :=
  ∃ before i after c, path.iter = before ++ i :: after ∧
    k.deriveFromPath H (DerivationPath.default.extend before) = .ok c ∧ BadPrivateChild H c i

def BadPublicPath (H : Hashes) (k : XPub) (path : DerivationPath) : Prop :=
  ∃ before i after c, path.iter = before ++ i :: after ∧
    k.deriveFromPath H (DerivationPath.default.extend before) = .ok c ∧ BadPublicChild H c i

/-- A signature of a 32-byte message meets, before any usable nonce, a nonce whose point has an x coordinate of at least n. -/
def LargeX (H : Hashes) (fuel : Nat) (d : Nat) (msg : Bytes) : Prop :=
  ∃ j < fuel, (∀ i < j, Unusable d (bytesVal msg) (candidate (mac H) d (bytesVal msg) i) ∧
      ∀ x y, candidate (mac H) d (bytesVal msg) i < n →
        HasCoords (candidate (mac H) d (bytesVal msg) i • G) x y → x < n) ∧
    0 < candidate (mac H) d (bytesVal msg) j ∧ candidate (mac H) d (bytesVal msg) j < n ∧
    ∃ x y, HasCoords (candidate (mac H) d (bytesVal msg) j • G) x y ∧ n ≤ x

/-- The calls that panic; every other call does not. -/
def Panics (E : Env) : Call → Prop
  | .getWord _ b => 2048 ≤ b.toNat
  | .prefixFromParts s _ => ¬ FourLetters s
  | .xprvNewFromPath seed path => ∃ k, XPrv.new E.H seed = .ok k ∧ BadPrivatePath E.H k path
  | .xprvDeriveChild k i => BadPrivateChild E.H k i
  | .xprvDeriveFromPath k path => BadPrivatePath E.H k path
  | .xpubDeriveChild k i => BadPublicChild E.H k i
  | .xpubDeriveFromPath k path => BadPublicPath E.H k path
  | .ecdsaSign secret msg => E.debug = true ∧ msg.length = 32 ∧ LargeX E.H E.fuel secret.k msg
  | _ => False

/-- A call that brings back one of the objects `held` from what other calls answer for it: a phrase and its language, the text of a
key, the text and the version of a prefix, the public fields of an extended key. -/
def Restores (E : Env) (held : List Obj) : Call → Prop
  | .mnemonicFromPhrase s l => ∃ m, .mnemonic m ∈ held ∧
      Call.answer E (.mnemonicPhrase m) = some (.ok (.text s)) ∧ Call.answer E (.mnemonicLanguage m) = some (.ok (.language (some l)))
  | .xprvFromStr s => ∃ k, .xprv k ∈ held ∧ Call.answer E (.xprvToString k .XPRV) = some (.ok (.text s))
  | .xpubFromStr s => ∃ k, .xpub k ∈ held ∧ Call.answer E (.xpubToString k .XPUB) = some (.ok (.text s))
  | .prefixFromParts s v => ∃ p, (.prefix p ∈ held ∨ ∃ e, .extendedKey e ∈ held ∧ p = e.pfx) ∧
      Call.answer E (.prefixAsStr p) = some (.ok (.text s)) ∧ Call.answer E (.prefixVersion p) = some (.ok (.number v.toNat))
  | .extendedKeyMake p a b => .extendedKey ⟨p, a, b⟩ ∈ held
  | _ => False

end Kms.Spec.Api
