import Verif.Model.Prelude
/-
The parts of Rust's `str`/`char`/`u32` text API used by the crate.
-/
namespace Kms

/-- `str::split(c)` for a one-character pattern: always at least one piece, separators dropped,
empty pieces kept.  Used at src/bip39/mnemonic.rs:194, src/bip39/mnemonic_type.rs:113,
src/bip32/derivation_path.rs:84. -/
def splitChar (sep : Char) : Str → List Str
  | [] => [[]]
  | c :: cs =>
    if c = sep then [] :: splitChar sep cs
    else match splitChar sep cs with
      | [] => [[c]]            -- unreachable: `splitChar` is never empty
      | w :: ws => (c :: w) :: ws

/-- Unicode `White_Space` (`char::is_whitespace`), Unicode 14.
Used in src/bip39/mnemonic.rs:145 and src/bip39/language.rs:46, 156. -/
def isWhitespace (c : Char) : Bool :=
  let n := c.toNat
  (9 ≤ n && n ≤ 13) || n == 0x20 || n == 0x85 || n == 0xA0 || n == 0x1680 ||
  (0x2000 ≤ n && n ≤ 0x200A) || n == 0x2028 || n == 0x2029 || n == 0x202F || n == 0x205F || n == 0x3000

/-- `str::split(char::is_whitespace)`.  Used in src/bip39/mnemonic.rs:145 and src/bip39/language.rs:46, 156. -/
def splitWs : Str → List Str
  | [] => [[]]
  | c :: cs =>
    if isWhitespace c then [] :: splitWs cs
    else match splitWs cs with
      | [] => [[c]]            -- unreachable
      | w :: ws => (c :: w) :: ws

/-- `str::split_whitespace`: split at white space, drop empty pieces.
Used at src/bip39/mnemonic.rs:145, src/bip39/language.rs:46 and :156. -/
def splitWhitespace (s : Str) : List Str := (splitWs s).filter (fun w => !w.isEmpty)

/-- src/bip39/util.rs:4-26 `IterExt::join`: first item, then glue and item for the rest;
the empty string for an empty iterator. -/
def join (glue : Str) : List Str → Str
  | [] => []
  | first :: rest => rest.foldl (fun buffer item => (buffer ++ glue) ++ item) first

/-- `str::to_ascii_lowercase` on one character.  Used in src/bip39/language.rs:136. -/
def asciiLowerChar (c : Char) : Char :=
  if 65 ≤ c.toNat ∧ c.toNat ≤ 90 then Char.ofNat (c.toNat + 32) else c

/-- `str::to_ascii_lowercase`.  Used in src/bip39/language.rs:136. -/
def toAsciiLowercase (s : Str) : Str := s.map asciiLowerChar

/-- `str::as_bytes`: UTF-8.  Used in src/bip39/crypto.rs:40, src/bip39/mnemonic.rs:262-273 and src/bip32/prefix.rs:74, 130. -/
def utf8 (s : Str) : Bytes := s.flatMap String.utf8EncodeChar

/-- `u32 as Display`: decimal digits without leading zeros.
Used in src/bip32/child_number.rs:57, src/bip39/mnemonic_type.rs:193-198 and src/bip39/error.rs:10-15. -/
def decimal (n : Nat) : Str := Nat.toDigits 10 n

/-- `char::to_digit(10)`.  Used in src/bip32/child_number.rs:88. -/
def digitVal (c : Char) : Option Nat :=
  if 48 ≤ c.toNat ∧ c.toNat ≤ 57 then some (c.toNat - 48) else none

/-- The digit loop of `u32::from_str_radix(_, 10)`: `checked_mul`, `to_digit`, `checked_add`.
Used in src/bip32/child_number.rs:88. -/
def parseU32Digits (acc : Nat) : Str → Option Nat
  | [] => some acc
  | c :: cs =>
    match digitVal c with
    | none => none
    | some d =>
      if acc * 10 < 2 ^ 32 ∧ acc * 10 + d < 2 ^ 32 then parseU32Digits (acc * 10 + d) cs else none

/-- `str::parse::<u32>()`: empty input, a lone sign, and a leading `-` are errors, a leading `+` is
accepted.  (The reason for the error is dropped: src/bip32/child_number.rs:88 discards it.) -/
def parseU32 (s : Str) : Option Nat :=
  match s with
  | [] => none
  | '+' :: [] => none
  | '+' :: rest => parseU32Digits 0 rest
  | s => parseU32Digits 0 s

/-- `str::strip_suffix('\'')` as used at src/bip32/child_number.rs:83: the string without a final
apostrophe, and whether there was one. -/
def stripApostrophe (s : Str) : Str × Bool :=
  if s.getLast? = some '\'' then (s.dropLast, true) else (s, false)

/-- One hex digit, lower case (`{:02x}`) or upper case (`{:02X}`).
Used in src/bip39/seed.rs:64-66, 78-80, src/bip39/mnemonic.rs:294-320 and src/crypto.rs:13. -/
def hexDigit (upper : Bool) (n : Nat) : Char :=
  if n < 10 then Char.ofNat (48 + n)
  else if upper then Char.ofNat (55 + n) else Char.ofNat (87 + n)

/-- `write!(f, "{:02x}", byte)` / `{:02X}`: exactly two digits, high nibble first.
Used in src/bip39/seed.rs:64-66, 78-80, src/bip39/mnemonic.rs:294-320 and src/crypto.rs:13. -/
def hexByte (upper : Bool) (b : UInt8) : Str :=
  [hexDigit upper (b.toNat / 16), hexDigit upper (b.toNat % 16)]

/-- The loop `for byte in bytes { write!(f, "{:02x}", byte)?; }`.
Used in src/bip39/seed.rs:64-66, 78-80, src/bip39/mnemonic.rs:294-320 and src/crypto.rs:13. -/
def hexBytes (upper : Bool) (bs : Bytes) : Str := bs.flatMap (hexByte upper)

end Kms
