import Verif.Model.RealHashes
import Verif.Model.Mnemonic
import Verif.Model.Keys
import Verif.Model.Ecdsa
open Kms Kms.Bip39 Kms.Bip32
def unhex (s : String) : Bytes :=
  let v (c : Char) : Nat := if c.isDigit then c.toNat - 48 else c.toLower.toNat - 87
  let rec go : List Char → Bytes
    | a :: b :: r => UInt8.ofNat (v a * 16 + v b) :: go r
    | _ => []
  go s.toList
def show1 : Res Bip32.Error Str → String
  | .ok s => String.ofList s
  | .err e => "err " ++ repr e |>.pretty
  | .panic => "panic"
def H := Kms.Real.hashes
def seed1 := unhex "000102030405060708090a0b0c0d0e0f"
def chain (p : String) : Res Bip32.Error Str × Res Bip32.Error Str :=
  let k := (do let p ← DerivationPath.fromStr p.toList; XPrv.newFromPath H seed1 p)
  ((do (← k).toString H Prefix.XPRV), (do (← k).publicKey.toString H Prefix.XPUB))
#eval do
  for p in ["m","m/0'","m/0'/1","m/0'/1/2'","m/0'/1/2'/2","m/0'/1/2'/2/1000000000"] do
    let r := chain p
    IO.println (show1 r.1); IO.println (show1 r.2)
#eval do
  match Mnemonic.fromEntropy H (unhex "33E46BB13A746EA41CDDE45C90846A79") .english with
  | .ok m =>
    IO.println (String.ofList m.phrase)
    IO.println (String.ofList ((Seed.new H m "password".toList).fmtHex false false))
  | _ => IO.println "bad"
#eval
  match ecdsaSign H true 5 ⟨1, by decide, by decide⟩ (H.sha256 "Satoshi Nakamoto".toUTF8.toList).1 with
  | some (.ok (s, r)) => IO.println (String.ofList (hexBytes false s.1) ++ " " ++ toString r)
  | _ => IO.println "bad"
