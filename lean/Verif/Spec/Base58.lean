/-
Base58, independent of the model.  A byte string and a text correspond when they are the same number, in base 256 and
base 58, with the same number of leading zeros (zero bytes and `1` characters).
-/
namespace Kms.Spec

/-- The 58 digits in order of value: digits, upper case, lower case, without `0`, `O`, `I` and `l`. -/
def digits58 : List Char :=
  (['1','2','3','4','5','6','7','8','9'] ++
   ['A','B','C','D','E','F','G','H','J','K','L','M','N','P','Q','R','S','T','U','V','W','X','Y','Z'] ++
   ['a','b','c','d','e','f','g','h','i','j','k','m','n','o','p','q','r','s','t','u','v','w','x','y','z'])

/-- A byte string as a number, most significant byte first. -/
def bytesVal (b : List UInt8) : Nat := b.foldl (fun v x => 256 * v + x.toNat) 0

/-- A text as a number in base 58, most significant digit first. -/
def textVal (s : List Char) : Nat := s.foldl (fun v c => 58 * v + digits58.idxOf c) 0

/-- `s` is the Base58 text of the bytes `b`. -/
structure Base58 (s : List Char) (b : List UInt8) : Prop where
  chars : ∀ c ∈ s, c ∈ digits58
  value : textVal s = bytesVal b
  zeros : (s.takeWhile (· = '1')).length = (b.takeWhile (· = 0)).length

/-- `s` is the Base58Check text of the payload `b`: the Base58 text of the payload followed by the first four bytes of
its double SHA-256. -/
def Base58Check (sha256 : List UInt8 → List UInt8) (s : List Char) (b : List UInt8) : Prop :=
  Base58 s (b ++ (sha256 (sha256 b)).take 4)

end Kms.Spec
