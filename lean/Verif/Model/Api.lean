import Verif.Model.Conversions
import Verif.Model.Debug
import Verif.Model.Keys
import Verif.Model.Ecdsa
/-
The public interface as a whole: the calls that a program can make and what they answer.
Simplifications: values whose parts are public (text, bytes, numbers, child numbers, paths, attributes, languages, phrase
sizes, libsecp256k1 keys) are arguments like any others; only values that a program cannot make up are objects that it must
hold.  `clone`, `drop` and moves are the choice of what to hold.  Comparisons of public values are left out (C83, C107), and so
are functions of public values that always return (`index`, `parent`, `push`, `total_bits` and the like).
-/
namespace Kms.Api
open Bip32 Bip39

/-- What a program with src/lib.rs:7-10 (the public modules) runs on: hash functions, whether debug assertions are on, the `binary_search` of the standard library,
and how many nonces a signature may try before it is counted as still running. -/
structure Env where
  H : Hashes
  debug : Bool
  search : WordList → Str → Nat ⊕ Nat
  fuel : Nat

/-- The objects a program holds: the types with private fields (src/bip39/mnemonic.rs:40-44, src/bip39/seed.rs:24-26,
src/bip32/extended_key/extended_private_key.rs:36-42, src/bip32/extended_key/extended_public_key.rs:24-30,
src/bip32/prefix.rs:25-31), and `ExtendedKey` (src/bip32/extended_key/mod.rs:16-27), which contains a `Prefix`. -/
inductive Obj where
  | mnemonic (m : Mnemonic)
  | seed (s : Seed)
  | xprv (k : XPrv)
  | xpub (k : XPub)
  | prefix (p : Prefix)
  | extendedKey (e : ExtendedKey)

/-- src/bip39/error.rs:5, src/bip32/error.rs:13, src/error.rs:3: the errors of the three modules. -/
inductive Err where
  | bip39 (e : ErrorKind)
  | bip32 (e : Bip32.Error)
  | sign (e : TopError)

/-- What the functions of `Call` return, apart from errors: the result types of src/bip39, src/bip32, src/lib.rs:14 and
src/crypto.rs:4. -/
inductive Answer where
  | obj (o : Obj)
  | unit
  | text (s : Str)
  | bytes (b : Bytes)
  | number (n : Nat)
  | flag (b : Bool)
  | language (l : Option Language)
  | size (t : MnemonicType)
  | words (ws : List Str)
  | child (c : ChildNumber)
  | path (p : DerivationPath)
  | attrs (a : ExtendedKeyAttrs)
  | secret (k : Secp.SecretKey)
  | point (k : Secp.PublicKey)
  | signature (sig : ByteArr 64) (recid : UInt8)

/-- The public functions of the crate, in the files named below (src/lib.rs:7-14, src/bip39/mod.rs:9-13, src/bip32/mod.rs re-export
them). -/
inductive Call where
  -- src/bip39/mnemonic.rs; `rng` is what the random number generator delivers
  | mnemonicNew (rng : (n : Nat) → ByteArr n) (t : MnemonicType) (l : Language)
  | mnemonicFromEntropy (e : Bytes) (l : Language)
  | mnemonicFromPhrase (s : Str) (l : Language)
  | mnemonicValidate (s : Str) (l : Language)
  | mnemonicPhrase (m : Mnemonic)
  | mnemonicIntoPhrase (m : Mnemonic)
  | mnemonicEntropy (m : Mnemonic)
  | mnemonicLanguage (m : Mnemonic)
  | mnemonicAsBytes (m : Mnemonic)
  | mnemonicHex (m : Mnemonic) (upper alternate : Bool)
  | mnemonicDebug (m : Mnemonic)
  -- src/bip39/seed.rs
  | seedNew (m : Mnemonic) (password : Str)
  | seedAsBytes (s : Seed)
  | seedHex (s : Seed) (upper alternate : Bool)
  | seedDebug (s : Seed)
  -- src/bip39/language.rs, src/bip39/mnemonic_type.rs
  | languageFromCode (s : Str)
  | languageFromPhrase (s : Str)
  | getWord (l : Language) (b : Bits11)
  | getBits (l : Language) (w : Str)
  | getWordsByPrefix (l : Language) (q : Str)
  | sizeForWordCount (n : Nat)
  | sizeForKeySize (n : Nat)
  | sizeForPhrase (s : Str)
  -- src/bip32/child_number.rs, src/bip32/derivation_path.rs
  | childNew (i : BitVec 32) (hardened : Bool)
  | childFromStr (s : Str)
  | pathFromStr (s : Str)
  -- src/bip32/prefix.rs
  | prefixConstant (i : Fin 8)
  | prefixFromParts (s : Str) (v : BitVec 32)
  | prefixFromBytes (b : ByteArr 4)
  | prefixTryFromVersion (v : BitVec 32)
  | prefixTryFromSlice (b : Bytes)
  | prefixAsStr (p : Prefix)
  | prefixIsPublic (p : Prefix)
  | prefixIsPrivate (p : Prefix)
  | prefixVersion (p : Prefix)
  | prefixToBytes (p : Prefix)
  | prefixDebug (p : Prefix) (pretty : Bool)
  -- src/bip32/extended_key/mod.rs; the fields are public
  | extendedKeyMake (p : Prefix) (a : ExtendedKeyAttrs) (b : ByteArr 33)
  | extendedKeyFromStr (s : Str)
  | extendedKeyToString (e : ExtendedKey)
  | extendedKeyWriteBase58 (e : ExtendedKey)
  | extendedKeyPrefix (e : ExtendedKey)
  -- src/bip32/extended_key/extended_private_key.rs, src/bip32/private_key.rs
  | xprvNew (seed : Bytes)
  | xprvNewFromPath (seed : Bytes) (path : DerivationPath)
  | xprvFromStr (s : Str)
  | xprvTryFrom (e : ExtendedKey)
  | xprvDeriveChild (k : XPrv) (i : ChildNumber)
  | xprvDeriveFromPath (k : XPrv) (path : DerivationPath)
  | xprvPublicKey (k : XPrv)
  | xprvPrivateKey (k : XPrv)
  | xprvAttrs (k : XPrv)
  | xprvToBytes (k : XPrv)
  | xprvToExtendedKey (k : XPrv) (p : Prefix)
  | xprvToString (k : XPrv) (p : Prefix)
  | xprvEq (a b : XPrv)
  | xprvDebug (k : XPrv) (pretty : Bool)
  -- src/bip32/extended_key/extended_public_key.rs, src/bip32/public_key.rs
  | xpubFromStr (s : Str)
  | xpubTryFrom (e : ExtendedKey)
  | xpubDeriveChild (k : XPub) (i : ChildNumber)
  | xpubDeriveFromPath (k : XPub) (path : DerivationPath)
  | xpubPublicKey (k : XPub)
  | xpubAttrs (k : XPub)
  | xpubFingerprint (k : XPub)
  | xpubToBytes (k : XPub)
  | xpubToExtendedKey (k : XPub) (p : Prefix)
  | xpubToString (k : XPub) (p : Prefix)
  -- src/lib.rs:14-19, src/crypto.rs:4-13
  | ecdsaSign (secret : Secp.SecretKey) (bytes : Bytes)
  | ripemd (msg : Bytes)

/-- The eight constants of src/bip32/prefix.rs:38-59 -/
def constants : List Prefix := [.TPRV, .TPUB, .XPRV, .XPUB, .YPRV, .YPUB, .ZPRV, .ZPUB]

/-- An answer of src/bip39: its error is src/bip39/error.rs:5 -/
def of39 {α : Type} (f : α → Answer) (r : Res ErrorKind α) : Option (Res Err Answer) := some ((r.mapErr Err.bip39).map f)

/-- An answer of src/bip32: its error is src/bip32/error.rs:13 -/
def of32 {α : Type} (f : α → Answer) (r : Res Bip32.Error α) : Option (Res Err Answer) := some ((r.mapErr Err.bip32).map f)

/-- An answer of a function that always returns, such as src/bip32/prefix.rs:108-110. -/
def plain (a : Answer) : Option (Res Err Answer) := some (.ok a)

namespace Call

/-- The objects that a call is given: the `self` and reference arguments in the signatures of the files named at `Call`.
Used in the public functions of src/lib.rs, src/bip39 and src/bip32 that `Call` lists with their lines. -/
def uses : Call → List Obj
  | mnemonicPhrase m | mnemonicIntoPhrase m | mnemonicEntropy m | mnemonicLanguage m | mnemonicAsBytes m
  | mnemonicHex m _ _ | mnemonicDebug m | seedNew m _ => [.mnemonic m]
  | seedAsBytes s | seedHex s _ _ | seedDebug s => [.seed s]
  | prefixAsStr p | prefixIsPublic p | prefixIsPrivate p | prefixVersion p | prefixToBytes p | prefixDebug p _
  | extendedKeyMake p _ _ => [.prefix p]
  | extendedKeyToString e | extendedKeyWriteBase58 e | extendedKeyPrefix e | xprvTryFrom e | xpubTryFrom e => [.extendedKey e]
  | xprvDeriveChild k _ | xprvDeriveFromPath k _ | xprvPublicKey k | xprvPrivateKey k | xprvAttrs k | xprvToBytes k
  | xprvDebug k _ => [.xprv k]
  | xprvEq a b => [.xprv a, .xprv b]
  | xprvToExtendedKey k p | xprvToString k p => [.xprv k, .prefix p]
  | xpubDeriveChild k _ | xpubDeriveFromPath k _ | xpubPublicKey k | xpubAttrs k | xpubFingerprint k | xpubToBytes k => [.xpub k]
  | xpubToExtendedKey k p | xpubToString k p => [.xpub k, .prefix p]
  | _ => []

/-- What a call answers: the function named at `Call`, as modelled, with its lines, in the other modules.  `none`: a signature is still looking for a
nonce.  Used in the public functions of src/lib.rs, src/bip39 and src/bip32 that `Call` lists with their lines. -/
def answer (E : Env) : Call → Option (Res Err Answer)
  | mnemonicNew rng t l => of39 (.obj ∘ .mnemonic) (Mnemonic.new E.H rng t l)
  | mnemonicFromEntropy e l => of39 (.obj ∘ .mnemonic) (Mnemonic.fromEntropy E.H e l)
  | mnemonicFromPhrase s l => of39 (.obj ∘ .mnemonic) (Mnemonic.fromPhrase E.H s l)
  | mnemonicValidate s l => of39 (fun _ => .unit) (Mnemonic.validate E.H s l)
  | mnemonicPhrase m => plain (.text m.asRef)
  | mnemonicIntoPhrase m => plain (.text m.intoPhrase)
  | mnemonicEntropy m => plain (.bytes m.entropy)
  | mnemonicLanguage m => plain (.language (some m.lang))
  | mnemonicAsBytes m => plain (.bytes m.asBytes)
  | mnemonicHex m upper alternate => plain (.text (m.fmtHex upper alternate))
  | mnemonicDebug m => plain (.text m.debug)
  | seedNew m password => plain (.obj (.seed (Seed.new E.H m password)))
  | seedAsBytes s => plain (.bytes s.bytes)
  | seedHex s upper alternate => plain (.text (s.fmtHex upper alternate))
  | seedDebug s => plain (.text s.fmtDebug)
  | languageFromCode s => plain (.language (Language.fromLanguageCode s))
  | languageFromPhrase s => plain (.language (Language.fromPhrase s))
  | getWord l b => of39 .text (Language.getWord l.wordlist b)
  | getBits l w => of39 (fun b => .number b.toNat) (Language.getBits l.wordmap w)
  | getWordsByPrefix l q => of39 .words (Language.getWordsByPrefix E.search l.wordlist q)
  | sizeForWordCount n => of39 .size (MnemonicType.forWordCount n)
  | sizeForKeySize n => of39 .size (MnemonicType.forKeySize n)
  | sizeForPhrase s => of39 .size (MnemonicType.forPhrase s)
  | childNew i hardened => of32 .child (ChildNumber.new i hardened)
  | childFromStr s => of32 .child (ChildNumber.fromStr s)
  | pathFromStr s => of32 .path (DerivationPath.fromStr s)
  | prefixConstant i => plain (.obj (.prefix constants[i]))
  | prefixFromParts s v => of32 (.obj ∘ .prefix) (Prefix.fromPartsUnchecked s v)
  | prefixFromBytes b => of32 (.obj ∘ .prefix) (Prefix.fromBytes E.H b)
  | prefixTryFromVersion v => of32 (.obj ∘ .prefix) (Prefix.tryFromVersion E.H v)
  | prefixTryFromSlice b => of32 (.obj ∘ .prefix) (Prefix.tryFromSlice E.H b)
  | prefixAsStr p => of32 .text p.asStr
  | prefixIsPublic p => plain (.flag p.isPublic)
  | prefixIsPrivate p => plain (.flag p.isPrivate)
  | prefixVersion p => plain (.number p.version.toNat)
  | prefixToBytes p => plain (.bytes p.toBytes.1)
  | prefixDebug p pretty => of32 .text (p.debug pretty)
  | extendedKeyMake p a b => plain (.obj (.extendedKey ⟨p, a, b⟩))
  | extendedKeyFromStr s => of32 (.obj ∘ .extendedKey) (ExtendedKey.fromStr E.H s)
  | extendedKeyToString e => of32 .text (e.toString E.H)
  | extendedKeyWriteBase58 e => of32 .text (e.writeBase58 E.H).2
  | extendedKeyPrefix e => plain (.obj (.prefix e.pfx))
  | xprvNew seed => of32 (.obj ∘ .xprv) (XPrv.new E.H seed)
  | xprvNewFromPath seed path => of32 (.obj ∘ .xprv) (XPrv.newFromPath E.H seed path)
  | xprvFromStr s => of32 (.obj ∘ .xprv) (XPrv.fromStr E.H s)
  | xprvTryFrom e => of32 (.obj ∘ .xprv) (XPrv.tryFrom e)
  | xprvDeriveChild k i => of32 (.obj ∘ .xprv) (k.deriveChild E.H i)
  | xprvDeriveFromPath k path => of32 (.obj ∘ .xprv) (k.deriveFromPath E.H path)
  | xprvPublicKey k => plain (.obj (.xpub k.publicKey))
  | xprvPrivateKey k => plain (.secret k.toSecretKey)
  | xprvAttrs k => plain (.attrs k.attrs)
  | xprvToBytes k => plain (.bytes k.toBytes.1)
  | xprvToExtendedKey k p => plain (.obj (.extendedKey (k.toExtendedKey p)))
  | xprvToString k p => of32 .text (k.toString E.H p)
  | xprvEq a b => plain (.flag (a.eq b))
  | xprvDebug k pretty => plain (.text (k.debug pretty))
  | xpubFromStr s => of32 (.obj ∘ .xpub) (XPub.fromStr E.H s)
  | xpubTryFrom e => of32 (.obj ∘ .xpub) (XPub.tryFrom e)
  | xpubDeriveChild k i => of32 (.obj ∘ .xpub) (k.deriveChild E.H i)
  | xpubDeriveFromPath k path => of32 (.obj ∘ .xpub) (k.deriveFromPath E.H path)
  | xpubPublicKey k => plain (.point k.toPublicKey)
  | xpubAttrs k => plain (.attrs k.attrs)
  | xpubFingerprint k => plain (.bytes (k.fingerprint E.H).1)
  | xpubToBytes k => plain (.bytes k.toBytes.1)
  | xpubToExtendedKey k p => plain (.obj (.extendedKey (k.toExtendedKey p)))
  | xpubToString k p => of32 .text (k.toString E.H p)
  | ecdsaSign secret bytes =>
    (Kms.ecdsaSign E.H E.debug E.fuel secret bytes).map fun r => (r.mapErr Err.sign).map fun (sig, v) => .signature sig v
  | ripemd msg => plain (.text (Kms.ripemd E.H msg))

/-- src/bip39/mnemonic.rs `from_entropy`: slices of 2^61 bytes and more, for which `len * 8` wraps around, exist on no machine. -/
def Feasible : Call → Prop
  | mnemonicFromEntropy e _ => e.length < 2 ^ 61
  | _ => True

/-- The program holds what the call is given (private fields, src/bip39/mnemonic.rs:40-44 and the others at `Obj`). -/
def Allowed (held : List Obj) (c : Call) : Prop := c.Feasible ∧ ∀ u ∈ c.uses, u ∈ held

end Call

/-- Programs that use src/lib.rs:7-14.  `History E log held`: a program can have made the calls `log`, last first, and hold the objects `held`.  A call is made with
objects that are held; an object that it answers is held afterwards; an error or a panic (caught) leaves nothing new;
objects may be dropped at any time. -/
inductive History (E : Env) : List Call → List Obj → Prop where
  | start : History E [] []
  | made {log held c o} : History E log held → c.Allowed held → c.answer E = some (.ok (.obj o)) →
      History E (c :: log) (o :: held)
  | nothing {log held c} : History E log held → c.Allowed held → (∀ o, c.answer E ≠ some (.ok (.obj o))) →
      History E (c :: log) held
  | dropped {log held held'} : History E log held → held' ⊆ held → History E log held'

end Kms.Api
