import Verif.Model.DebugErrors
import Verif.Props.DebugFormat
import Verif.Props.Wipe
/-
C108: `Debug` of errors and extended public keys.
-/
namespace Kms.Props
open Kms.Bip32 Kms.Bip39 Kms.Spec

/-- `Debug` of a value with the given name and fields in parentheses. -/
def tupleText (pretty : Bool) (name : Str) (fields : List Str) : Str :=
  if fields = [] then name
  else if pretty then name ++ "(\n".toList ++ fields.flatMap (fun v => padLines true (v ++ ",\n".toList)) ++ [')']
  else name ++ ['('] ++ join ", ".toList fields ++ [')']

/-- The name of each error of key handling. -/
def bip32Name : Bip32.Error → String
  | .base58 => "Base58"
  | .bip39 => "Bip39"
  | .childNumber => "ChildNumber"
  | .crypto => "Crypto"
  | .decode => "Decode"
  | .depth => "Depth"
  | .seedLength => "SeedLength"

/-- The name of each error of phrases, and its fields with numbers written by `num`. -/
def bip39Parts (num : Nat → Str) : Bip39.ErrorKind → String × List Str
  | .invalidChecksum => ("InvalidChecksum", [])
  | .invalidWord => ("InvalidWord", [])
  | .invalidKeysize n => ("InvalidKeysize", [num n])
  | .invalidWordLength n => ("InvalidWordLength", [num n])
  | .invalidEntropyLength n t => ("InvalidEntropyLength", [num n, "Words".toList ++ decimal t.wordCount])

/-- The name of each error of the curve library. -/
def secpName : Secp.Error → String
  | .invalidSignature => "InvalidSignature"
  | .invalidPublicKey => "InvalidPublicKey"
  | .invalidSecretKey => "InvalidSecretKey"
  | .invalidRecoveryId => "InvalidRecoveryId"
  | .invalidMessage => "InvalidMessage"
  | .invalidInputLength => "InvalidInputLength"
  | .tweakOutOfRange => "TweakOutOfRange"

theorem typeName (t : MnemonicType) : t.debug = "Words".toList ++ decimal t.wordCount := by
  cases t <;> decide +kernel

theorem tupleText_one (pretty : Bool) (name v : Str) : debugTuple1 pretty name v = tupleText pretty name [v] := by
  cases pretty <;> simp [debugTuple1, tupleText, join]

theorem writes_dTuple2 (spec : FmtSpec) (name : Str) {f g : Fmt} {s t : Str} (hf : Writes f s) (hg : Writes g t) :
    Writes (Fmt.dTuple2 spec name f g) (tupleText spec.alternate name [s, t]) := by
  unfold Fmt.dTuple2 Fmt.tupleFields Fmt.tupleFields Fmt.tupleFields tupleText
  cases hs : spec.alternate
  · exact writes_cast (writes_next (writes_str name) (writes_next (writes_next (writes_next (writes_str ['(']) hf)
      (writes_next (writes_next (writes_str ", ".toList) hg) writes_done)) (writes_str [')']))) (by simp [join])
  · exact writes_cast (writes_next (writes_str name) (writes_next (writes_next (writes_next (writes_str "(\n".toList)
      (writes_indented (writes_next hf (writes_str ",\n".toList))))
      (writes_next (writes_next writes_done (writes_indented (writes_next hg (writes_str ",\n".toList)))) writes_done))
      (writes_str [')']))) (by simp)

theorem padLines_inj {nl : Bool} {a b : Str} (h : padLines nl a = padLines nl b) : a = b := by
  induction a generalizing nl b with
  | nil =>
    cases b with
    | nil => rfl
    | cons c b => cases nl <;> simp [padLines] at h
  | cons c a ih =>
    cases b with
    | nil => cases nl <;> simp [padLines] at h
    | cons d b =>
      have h' : c :: padLines (c == '\n') a = d :: padLines (d == '\n') b := List.append_cancel_left h
      rw [List.cons.injEq] at h'
      obtain ⟨rfl, h'⟩ := h'
      rw [ih h']

theorem nlText_line (nl : Bool) (s : Str) : nlText nl (s ++ ",\n".toList) = true := by
  rw [nlText_append]
  rfl

/-- What stands between the parentheses. -/
def inside (pretty : Bool) (fields : List Str) : Str :=
  if pretty then fields.flatMap (· ++ ",\n".toList) else join ", ".toList fields

theorem padLines_fields (fields : List Str) :
    fields.flatMap (fun v => padLines true (v ++ ",\n".toList)) = padLines true (fields.flatMap (· ++ ",\n".toList)) := by
  induction fields with
  | nil => rfl
  | cons v fs ih => rw [List.flatMap_cons, List.flatMap_cons, padLines_append true (v ++ _), nlText_line, ih]

theorem tupleText_inj {pretty : Bool} {name : Str} {fs fs' : List Str} (h : fs ≠ []) (h' : fs' ≠ [])
    (e : tupleText pretty name fs = tupleText pretty name fs') : inside pretty fs = inside pretty fs' := by
  unfold tupleText at e
  rw [if_neg h, if_neg h'] at e
  cases pretty
  · simp only [Bool.false_eq_true, if_false] at e
    exact List.append_cancel_left (List.append_cancel_right e)
  · simp only [if_true] at e
    have e := List.append_cancel_left (List.append_cancel_right e)
    rw [padLines_fields, padLines_fields] at e
    exact padLines_inj e

theorem tupleText_eighth (pretty : Bool) (name : Str) (fs : List Str) (c : Char) (h : name[7]? = some c) :
    (tupleText pretty name fs)[7]? = some c := by
  have hp : name <+: tupleText pretty name fs := by
    unfold tupleText
    split
    · exact List.prefix_refl _
    · cases pretty <;> simp [List.append_assoc]
  obtain ⟨t, ht⟩ := hp
  rw [← ht, List.getElem?_append_left (by
    by_contra hn
    rw [List.getElem?_eq_none (by omega)] at h
    cases h)]
  exact h

/-- The letter after "Invalid". -/
def eighth : ErrorKind → Char
  | .invalidChecksum => 'C'
  | .invalidWord => 'W'
  | .invalidKeysize _ => 'K'
  | .invalidWordLength _ => 'W'
  | .invalidEntropyLength _ _ => 'E'

theorem eighth_spec (e : ErrorKind) : (bip39Parts decimal e).1.toList[7]? = some (eighth e) := by
  cases e with
  | invalidChecksum => exact (by decide +kernel : "InvalidChecksum".toList[7]? = some 'C')
  | invalidWord => exact (by decide +kernel : "InvalidWord".toList[7]? = some 'W')
  | invalidKeysize _ => exact (by decide +kernel : "InvalidKeysize".toList[7]? = some 'K')
  | invalidWordLength _ => exact (by decide +kernel : "InvalidWordLength".toList[7]? = some 'W')
  | invalidEntropyLength _ _ => exact (by decide +kernel : "InvalidEntropyLength".toList[7]? = some 'E')

theorem bip39_debug_inj (pretty : Bool) (e e' : ErrorKind)
    (h : tupleText pretty (bip39Parts decimal e).1.toList (bip39Parts decimal e).2 =
      tupleText pretty (bip39Parts decimal e').1.toList (bip39Parts decimal e').2) : e = e' := by
  have hcd : some (eighth e) = some (eighth e') := by
    rw [← tupleText_eighth pretty _ (bip39Parts decimal e).2 _ (eighth_spec e),
      ← tupleText_eighth pretty _ (bip39Parts decimal e').2 _ (eighth_spec e'), h]
  rw [Option.some.injEq] at hcd
  have one : ∀ n m : Nat, inside pretty [decimal n] = inside pretty [decimal m] → n = m := by
    intro n m h
    cases pretty
    · exact decimal_inj (by simpa [inside, join] using h)
    · exact decimal_inj (by simpa [inside] using h)
  have hlen : ∀ n, tupleText pretty "InvalidWord".toList [] ≠ tupleText pretty "InvalidWordLength".toList [decimal n] := by
    intro n h
    have := congrArg List.length h
    cases pretty <;> simp [tupleText] at this
  cases e with
  | invalidChecksum => cases e' <;> first | rfl | exact absurd hcd (by simp [eighth])
  | invalidWord =>
    cases e' with
    | invalidWord => rfl
    | invalidWordLength n => exact absurd h (hlen n)
    | _ => exact absurd hcd (by simp [eighth])
  | invalidKeysize n =>
    cases e' with
    | invalidKeysize m => rw [one n m (tupleText_inj (by simp) (by simp) h)]
    | _ => exact absurd hcd (by simp [eighth])
  | invalidWordLength n =>
    cases e' with
    | invalidWordLength m => rw [one n m (tupleText_inj (by simp) (by simp) h)]
    | invalidWord => exact absurd h.symm (hlen n)
    | _ => exact absurd hcd (by simp [eighth])
  | invalidEntropyLength n t =>
    cases e' with
    | invalidEntropyLength n' t' =>
      have h := tupleText_inj (by simp [bip39Parts]) (by simp [bip39Parts]) h
      simp only [bip39Parts, ← typeName] at h
      have h : decimal n ++ (if pretty then ",\n" else ", ").toList ++ t.debug = decimal n' ++ (if pretty then ",\n" else ", ").toList ++ t'.debug := by
        cases pretty
        · simpa [inside, join] using h
        · have h : (decimal n ++ ",\n".toList ++ t.debug) ++ ",\n".toList = (decimal n' ++ ",\n".toList ++ t'.debug) ++ ",\n".toList := by
            simpa [inside] using h
          exact List.append_cancel_right h
      obtain ⟨rfl, rfl⟩ := entropy_message_inj [] _ h
      rfl
    | _ => exact absurd hcd (by simp [eighth])

/-- **C108** Whatever the format specification and the writer, `Debug` of an error writes the name of the error, followed
by its numbers in parentheses if it has any, and nothing else; width, fill, sign and `x?` apply to the numbers only.  With
`{:?}` and `{:#?}` the text determines the error, the cause of a signing error included.  `Debug` of an extended public
key over any key type writes the key as its type does, then the attributes. -/
theorem C108_debug_errors_and_public_keys (spec : FmtSpec) :
    (∀ e : Bip32.Error, Writes (e.debugFmt spec) (bip32Name e).toList) ∧
    (∀ e : ErrorKind, Writes (e.debugFmt spec)
      (tupleText spec.alternate (bip39Parts (number spec) e).1.toList (bip39Parts (number spec) e).2)) ∧
    (∀ e : Secp.Error, Writes ((TopError.secp256k1Error e).debugFmt spec)
      (tupleText spec.alternate "Secp256k1Error".toList [(secpName e).toList])) ∧
    (∀ t : MnemonicType, Writes (t.debugFmt spec) ("Words".toList ++ decimal t.wordCount)) ∧
    Writes (Language.english.debugFmt spec) "English".toList ∧
    Writes (Language.chineseSimplified.debugFmt spec) "ChineseSimplified".toList ∧
    (∀ (K : KeyImpl) (keyDebug : K.PK → FmtSpec → Fmt) (k : GPub K) (text : Str), Writes (keyDebug k.publicKey spec) text →
      Writes (k.debugFmt keyDebug spec) (debugStruct spec.alternate "ExtendedPublicKey".toList
        [("public_key".toList, text), ("attrs".toList, attrsText (number spec) spec.alternate k.attrs)])) ∧
    -- the text determines the error
    (∀ e e' : Bip32.Error, bip32Name e = bip32Name e' → e = e') ∧
    (∀ pretty, number { alternate := pretty } = decimal ∧
      (∀ e e' : ErrorKind, tupleText pretty (bip39Parts decimal e).1.toList (bip39Parts decimal e).2 =
        tupleText pretty (bip39Parts decimal e').1.toList (bip39Parts decimal e').2 → e = e') ∧
      (∀ e e' : Secp.Error, tupleText pretty "Secp256k1Error".toList [(secpName e).toList] =
        tupleText pretty "Secp256k1Error".toList [(secpName e').toList] → e = e')) := by
  refine ⟨fun e => ?_, fun e => ?_, fun e => ?_, fun t => ?_, writes_str _, writes_str _, fun K keyDebug k text h => ?_, ?_, fun pretty => ⟨?_, ?_, ?_⟩⟩
  · cases e <;> exact writes_str _
  · cases e with
    | invalidChecksum => exact writes_cast (writes_str _) (by simp [tupleText, bip39Parts])
    | invalidWord => exact writes_cast (writes_str _) (by simp [tupleText, bip39Parts])
    | invalidKeysize n => exact writes_cast (writes_dTuple1 spec _ (writes_dInt spec n)) (tupleText_one _ _ _)
    | invalidWordLength n => exact writes_cast (writes_dTuple1 spec _ (writes_dInt spec n)) (tupleText_one _ _ _)
    | invalidEntropyLength n t =>
      exact writes_dTuple2 spec _ (writes_dInt spec n) (writes_cast (writes_str _) (typeName t))
  · refine writes_cast (writes_dTuple1 spec _ (t := (secpName e).toList) ?_) (tupleText_one _ _ _)
    cases e <;> exact writes_str _
  · exact writes_cast (writes_str _) (typeName t)
  · exact writes_dStruct spec _ (.cons h (.cons (writes_attrs_debug spec _) .nil)) (by simp)
  · intro e e'
    cases e <;> cases e' <;> first | exact fun _ => rfl | exact fun h => absurd h (by decide)
  · exact funext (number_plain pretty)
  · exact bip39_debug_inj pretty
  · intro e e' h
    have h := tupleText_inj (by simp) (by simp) h
    have h : (secpName e).toList = (secpName e').toList := by
      cases pretty
      · simpa [inside, join] using h
      · simpa [inside] using h
    revert h
    cases e <;> cases e' <;> first | exact fun _ => rfl | exact fun h => absurd h (by decide +kernel)

/-- `{:#?}` of an error with two fields, and `{:08x?}`. -/
example : ((ErrorKind.invalidEntropyLength 42 .words12).debugFmt { alternate := true }).run (cappedWriter 200) [] =
      ("InvalidEntropyLength(\n    42,\n    Words12,\n)".toList, .ok ()) ∧
    ((ErrorKind.invalidEntropyLength 42 .words12).debugFmt { width := some 8, zeroPad := true, debugHex := some false }).run
      (cappedWriter 200) [] = ("InvalidEntropyLength(0000002a, Words12)".toList, .ok ()) ∧
    ((TopError.secp256k1Error .invalidInputLength).debugFmt {}).run (cappedWriter 200) [] =
      ("Secp256k1Error(InvalidInputLength)".toList, .ok ()) := by
  decide +kernel

end Kms.Props
