import Verif.Model.Api
import Verif.Spec.Bip39
/-
The errors that each public function can return (C124).
-/
namespace Kms.Spec.Api
open Kms.Api Kms.Bip32 Kms.Bip39
open Kms.Spec (sizes entropyLengths)

/-- The public functions that return a `Result`; `other` stands for all others. -/
inductive Fn where
  | fromEntropy | fromPhrase | validate | getBits | forWordCount | forKeySize | forPhrase
  | childNew | childFromStr | pathFromStr
  | prefixFromVersion | prefixFromSlice | extendedKeyFromStr
  | xprvNew | xprvNewFromPath | xprvFromStr | xprvTryFrom | xprvDeriveChild | xprvDeriveFromPath
  | xpubFromStr | xpubTryFrom | xpubDeriveChild | xpubDeriveFromPath
  | ecdsaSign
  | other

/-- The function that a call calls. -/
def fn : Call → Fn
  | .mnemonicFromEntropy _ _ => .fromEntropy
  | .mnemonicFromPhrase _ _ => .fromPhrase
  | .mnemonicValidate _ _ => .validate
  | .getBits _ _ => .getBits
  | .sizeForWordCount _ => .forWordCount
  | .sizeForKeySize _ => .forKeySize
  | .sizeForPhrase _ => .forPhrase
  | .childNew _ _ => .childNew
  | .childFromStr _ => .childFromStr
  | .pathFromStr _ => .pathFromStr
  | .prefixFromBytes _ | .prefixTryFromVersion _ => .prefixFromVersion
  | .prefixTryFromSlice _ => .prefixFromSlice
  | .extendedKeyFromStr _ => .extendedKeyFromStr
  | .xprvNew _ => .xprvNew
  | .xprvNewFromPath _ _ => .xprvNewFromPath
  | .xprvFromStr _ => .xprvFromStr
  | .xprvTryFrom _ => .xprvTryFrom
  | .xprvDeriveChild _ _ => .xprvDeriveChild
  | .xprvDeriveFromPath _ _ => .xprvDeriveFromPath
  | .xpubFromStr _ => .xpubFromStr
  | .xpubTryFrom _ => .xpubTryFrom
  | .xpubDeriveChild _ _ => .xpubDeriveChild
  | .xpubDeriveFromPath _ _ => .xpubDeriveFromPath
  | .ecdsaSign _ _ => .ecdsaSign
  | _ => .other

/-- The table of errors.  A number in an error of BIP39 is one that the function can have been given: the bits of some slice of bytes, the pieces of some text. -/
inductive ErrorTable : Fn → Err → Prop where
  | entropySize (b : Nat) : b < 2 ^ 61 → b ∉ entropyLengths → ErrorTable .fromEntropy (.bip39 (.invalidKeysize (8 * b)))
  | phraseWord : ErrorTable .fromPhrase (.bip39 .invalidWord)
  | phraseChecksum : ErrorTable .fromPhrase (.bip39 .invalidChecksum)
  | phraseLength (n : Nat) : n ≠ 0 → n ∉ sizes → ErrorTable .fromPhrase (.bip39 (.invalidWordLength n))
  | validateWord : ErrorTable .validate (.bip39 .invalidWord)
  | validateChecksum : ErrorTable .validate (.bip39 .invalidChecksum)
  | validateLength (n : Nat) : n ≠ 0 → n ∉ sizes → ErrorTable .validate (.bip39 (.invalidWordLength n))
  | bitsWord : ErrorTable .getBits (.bip39 .invalidWord)
  | sizeWords (n : Nat) : n ∉ sizes → ErrorTable .forWordCount (.bip39 (.invalidWordLength n))
  | sizeKey (n : Nat) : n ∉ [128, 160, 192, 224, 256] → ErrorTable .forKeySize (.bip39 (.invalidKeysize n))
  | sizePhrase (n : Nat) : n ≠ 0 → n ∉ sizes → ErrorTable .forPhrase (.bip39 (.invalidWordLength n))
  | childNew : ErrorTable .childNew (.bip32 .childNumber)
  | childText : ErrorTable .childFromStr (.bip32 .childNumber)
  | pathStart : ErrorTable .pathFromStr (.bip32 .decode)
  | pathChild : ErrorTable .pathFromStr (.bip32 .childNumber)
  | version : ErrorTable .prefixFromVersion (.bip32 .decode)
  | slice : ErrorTable .prefixFromSlice (.bip32 .decode)
  | keyText : ErrorTable .extendedKeyFromStr (.bip32 .base58)
  | keyBytes : ErrorTable .extendedKeyFromStr (.bip32 .decode)
  | seedLength : ErrorTable .xprvNew (.bip32 .seedLength)
  | seedBad : ErrorTable .xprvNew (.bip32 .crypto)
  | pathSeedLength : ErrorTable .xprvNewFromPath (.bip32 .seedLength)
  | pathSeedBad : ErrorTable .xprvNewFromPath (.bip32 .crypto)
  | pathSeedDepth : ErrorTable .xprvNewFromPath (.bip32 .depth)
  | xprvText : ErrorTable .xprvFromStr (.bip32 .base58)
  | xprvBytes : ErrorTable .xprvFromStr (.bip32 .decode)
  | xprvKey : ErrorTable .xprvFromStr (.bip32 .crypto)
  | xprvOf : ErrorTable .xprvTryFrom (.bip32 .crypto)
  | xprvDepth : ErrorTable .xprvDeriveChild (.bip32 .depth)
  | xprvZero : ErrorTable .xprvDeriveChild (.bip32 .crypto)
  | xprvPathDepth : ErrorTable .xprvDeriveFromPath (.bip32 .depth)
  | xprvPathZero : ErrorTable .xprvDeriveFromPath (.bip32 .crypto)
  | xpubText : ErrorTable .xpubFromStr (.bip32 .base58)
  | xpubBytes : ErrorTable .xpubFromStr (.bip32 .decode)
  | xpubKey : ErrorTable .xpubFromStr (.bip32 .crypto)
  | xpubOf : ErrorTable .xpubTryFrom (.bip32 .crypto)
  | xpubHardened : ErrorTable .xpubDeriveChild (.bip32 .childNumber)
  | xpubDepth : ErrorTable .xpubDeriveChild (.bip32 .depth)
  | xpubZero : ErrorTable .xpubDeriveChild (.bip32 .crypto)
  | xpubPathHardened : ErrorTable .xpubDeriveFromPath (.bip32 .childNumber)
  | xpubPathDepth : ErrorTable .xpubDeriveFromPath (.bip32 .depth)
  | xpubPathZero : ErrorTable .xpubDeriveFromPath (.bip32 .crypto)
  | message : ErrorTable .ecdsaSign (.sign (.secp256k1Error .invalidInputLength))

end Kms.Spec.Api
