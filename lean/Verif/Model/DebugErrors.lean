import Verif.Model.DebugFormat
import Verif.Model.ErrorText
import Verif.Model.Ecdsa
import Verif.Model.GenericKeys
/-
`Debug` of the error types, of `Language` and `MnemonicType`, and of `ExtendedPublicKey<K>`, with any format specification
and any writer.
-/
namespace Kms
namespace Fmt

/-- `DebugTuple::field` for each field; `first` is `fields == 0`.  Used in the derived `Debug` of src/bip39/error.rs:4-16. -/
def tupleFields (spec : FmtSpec) (first : Bool) : List Fmt → Fmt
  | [] => done
  | value :: rest =>
    next
      (if spec.alternate then
        next (if first then str "(\n".toList else done) (indented (next value (str ",\n".toList)))
      else next (str (if first then ['('] else ", ".toList)) value)
      (tupleFields spec false rest)

/-- `Formatter::debug_tuple`, `field` for two fields, `finish`.  Used in the derived `Debug` of src/bip39/error.rs:4-16. -/
def dTuple2 (spec : FmtSpec) (name : Str) (a b : Fmt) : Fmt :=
  next (str name) (next (tupleFields spec true [a, b]) (str [')']))

end Fmt
open Fmt

/-- src/bip32/error.rs:11 `derive(Debug)`: the name of the variant, by `write_str`. -/
def Bip32.Error.debugFmt (e : Bip32.Error) (_ : FmtSpec) : Fmt :=
  match e with
  | .base58 => str "Base58".toList
  | .bip39 => str "Bip39".toList
  | .childNumber => str "ChildNumber".toList
  | .crypto => str "Crypto".toList
  | .decode => str "Decode".toList
  | .depth => str "Depth".toList
  | .seedLength => str "SeedLength".toList

/-- src/bip39/mnemonic_type.rs:32 `derive(Debug)` -/
def Bip39.MnemonicType.debugFmt (t : Bip39.MnemonicType) (_ : FmtSpec) : Fmt := str t.debug

/-- src/bip39/language.rs:114 `derive(Debug)` (the languages of the default build) -/
def Bip39.Language.debugFmt (l : Bip39.Language) (_ : FmtSpec) : Fmt :=
  match l with
  | .english => str "English".toList
  | .chineseSimplified => str "ChineseSimplified".toList

/-- src/bip39/error.rs:4 `derive(Debug)` -/
def Bip39.ErrorKind.debugFmt (e : Bip39.ErrorKind) (spec : FmtSpec) : Fmt :=
  match e with
  | .invalidChecksum => str "InvalidChecksum".toList
  | .invalidWord => str "InvalidWord".toList
  | .invalidKeysize n => dTuple1 spec "InvalidKeysize".toList (dInt spec n)
  | .invalidWordLength n => dTuple1 spec "InvalidWordLength".toList (dInt spec n)
  | .invalidEntropyLength n t => dTuple2 spec "InvalidEntropyLength".toList (dInt spec n) (t.debugFmt spec)

/-- `libsecp256k1::Error`, `derive(Debug)`.  Used in the derived `Debug` of src/error.rs:2-6. -/
def Secp.Error.debugFmt (e : Secp.Error) (_ : FmtSpec) : Fmt :=
  match e with
  | .invalidSignature => str "InvalidSignature".toList
  | .invalidPublicKey => str "InvalidPublicKey".toList
  | .invalidSecretKey => str "InvalidSecretKey".toList
  | .invalidRecoveryId => str "InvalidRecoveryId".toList
  | .invalidMessage => str "InvalidMessage".toList
  | .invalidInputLength => str "InvalidInputLength".toList
  | .tweakOutOfRange => str "TweakOutOfRange".toList

/-- src/error.rs:2 `derive(Debug)` -/
def TopError.debugFmt (e : TopError) (spec : FmtSpec) : Fmt :=
  match e with
  | .secp256k1Error e => dTuple1 spec "Secp256k1Error".toList (e.debugFmt spec)

/-- src/bip32/extended_key/extended_public_key.rs:23-30 `derive(Debug)`, for a key type with the `Debug` method given. -/
def Bip32.GPub.debugFmt {K : Bip32.KeyImpl} (keyDebug : K.PK → FmtSpec → Fmt) (k : Bip32.GPub K) (spec : FmtSpec) : Fmt :=
  dStruct spec "ExtendedPublicKey".toList
    [("public_key".toList, keyDebug k.publicKey spec), ("attrs".toList, k.attrs.debugFmt spec)]

end Kms
