/-
Shared vocabulary of the model: outcomes, byte strings, fixed-size byte arrays.
-/

namespace Kms

/-- Outcome of a Rust function: `Ok`, `Err`, or a panic.
Rust `Result<T, E>` never contains the third case; a function that cannot panic is shown so by theorem.
The return type of the fallible functions of src/ (`Result` of src/bip32/error.rs and `anyhow` in src/bip39). -/
inductive Res (ε α : Type) where
  | ok (a : α)
  | err (e : ε)
  | panic
  deriving DecidableEq, Repr

namespace Res

/-- `?`-style sequencing: stop at the first error or panic. -/
@[inline] def bind {ε α β : Type} : Res ε α → (α → Res ε β) → Res ε β
  | ok a, f => f a
  | err e, _ => err e
  | panic, _ => panic

/-- `Result::map` -/
@[inline] def map {ε α β : Type} (f : α → β) : Res ε α → Res ε β
  | ok a => ok (f a)
  | err e => err e
  | panic => panic

/-- `Result::map_err`, `From` conversions applied by `?`. -/
@[inline] def mapErr {ε ε' α : Type} (f : ε → ε') : Res ε α → Res ε' α
  | ok a => ok a
  | err e => err (f e)
  | panic => panic

/-- The `?` operator of the fallible functions of src/. -/
instance {ε : Type} : Monad (Res ε) where
  pure := ok
  bind := bind

@[simp] theorem ok_bind {ε α β : Type} (a : α) (f : α → Res ε β) : (ok a >>= f) = f a := rfl
@[simp] theorem err_bind {ε α β : Type} (e : ε) (f : α → Res ε β) : (err e >>= f) = err e := rfl
@[simp] theorem panic_bind {ε α β : Type} (f : α → Res ε β) : ((panic : Res ε α) >>= f) = panic := rfl
@[simp] theorem pure_eq {ε α : Type} (a : α) : (pure a : Res ε α) = ok a := rfl
@[simp] theorem map_ok {ε α β : Type} (f : α → β) (a : α) : (ok a : Res ε α).map f = ok (f a) := rfl
@[simp] theorem map_err {ε α β : Type} (f : α → β) (e : ε) : (err e : Res ε α).map f = err e := rfl
@[simp] theorem map_panic {ε α β : Type} (f : α → β) : (panic : Res ε α).map f = panic := rfl
@[simp] theorem mapErr_ok {ε ε' α : Type} (f : ε → ε') (a : α) : (ok a : Res ε α).mapErr f = ok a := rfl
@[simp] theorem mapErr_err {ε ε' α : Type} (f : ε → ε') (e : ε) : (err e : Res ε α).mapErr f = err (f e) := rfl
@[simp] theorem mapErr_panic {ε ε' α : Type} (f : ε → ε') : (panic : Res ε α).mapErr f = panic := rfl

theorem bind_assoc' {ε α β γ : Type} (x : Res ε α) (f : α → Res ε β) (g : β → Res ε γ) :
    (x >>= f >>= g) = (x >>= fun a => f a >>= g) := by
  cases x <;> rfl

/-- The laws of `?`; models no lines of src/ of its own. -/
instance {ε : Type} : LawfulMonad (Res ε) := LawfulMonad.mk' _
  (id_map := fun x => by cases x <;> rfl)
  (pure_bind := fun _ _ => rfl)
  (bind_assoc := fun x _ _ => by cases x <;> rfl)

/-- Did the call return `Ok`?
The return type of the fallible functions of src/ (`Result` of src/bip32/error.rs and `anyhow` in src/bip39). -/
def isOk {ε α : Type} : Res ε α → Bool
  | ok _ => true
  | _ => false

/-- `Option::ok_or` -/
@[inline] def ofOption {ε α : Type} (e : ε) : Option α → Res ε α
  | some a => ok a
  | none => err e

@[simp] theorem ofOption_some {ε α : Type} (e : ε) (a : α) : ofOption e (some a) = ok a := rfl
@[simp] theorem ofOption_none {ε α : Type} (e : ε) : (ofOption e none : Res ε α) = err e := rfl

theorem bind_eq_ok {ε α β : Type} {x : Res ε α} {f : α → Res ε β} {b : β} :
    (x >>= f) = ok b ↔ ∃ a, x = ok a ∧ f a = ok b := by
  cases x <;> simp

end Res

/-- `&str` / `String`: a sequence of Unicode scalar values (Lean's `Char` is exactly Rust's `char`).
As in src/bip39/mnemonic.rs:143 and src/bip32/extended_key/mod.rs:71. -/
abbrev Str := List Char

/-- `&[u8]` / `Vec<u8>`.  As in src/bip39/mnemonic.rs:87 and src/lib.rs:14. -/
abbrev Bytes := List UInt8

/-- `[u8; n]`.  As in src/bip32/private_key.rs:9, src/bip32/public_key.rs:15 and src/bip32/extended_key/attrs.rs. -/
abbrev ByteArr (n : Nat) := { l : List UInt8 // l.length = n }

/-- `slice.try_into::<[u8; n]>()`; the error of `TryFromSliceError` is chosen by the caller's `From`.
Used in src/bip32/prefix.rs:193, src/bip32/extended_key/mod.rs:81-89 and src/bip32/extended_key/extended_private_key.rs:76, 81,
124, 129, 248. -/
def tryIntoArr {ε : Type} (n : Nat) (e : ε) (l : Bytes) : Res ε (ByteArr n) :=
  if h : l.length = n then .ok ⟨l, h⟩ else .err e

theorem tryIntoArr_ok {ε : Type} {n : Nat} {e : ε} {l : Bytes} (h : l.length = n) :
    tryIntoArr n e l = .ok ⟨l, h⟩ := by simp [tryIntoArr, h]

/-- The all-zero array.  Used in src/bip32/extended_key/mod.rs:44, 61, 72 and src/bip32/prefix.rs:91, 94. -/
def zeroArr (n : Nat) : ByteArr n := ⟨List.replicate n 0, by simp⟩

/-- Big-endian value of a byte string.
Used in src/bip32/prefix.rs:83, 124, src/bip32/child_number.rs:35, 40 and by libsecp256k1 for keys. -/
def beNat (l : Bytes) : Nat := l.foldl (fun a b => a * 256 + b.toNat) 0

/-- Big-endian encoding of `v` on `n` bytes (`v` taken modulo `256^n`).
Used in src/bip32/prefix.rs:83, 124, src/bip32/child_number.rs:35, 40 and by libsecp256k1 for keys. -/
def natBE : (n : Nat) → Nat → Bytes
  | 0, _ => []
  | n + 1, v => UInt8.ofNat (v / 256 ^ n) :: natBE n v

@[simp] theorem natBE_length (n v : Nat) : (natBE n v).length = n := by
  induction n with
  | zero => rfl
  | succ n ih => simp [natBE, ih]

/-- `u32::to_be_bytes`.  Used in src/bip32/prefix.rs:92, 124 and src/bip32/child_number.rs:40. -/
def u32ToBE (v : BitVec 32) : ByteArr 4 := ⟨natBE 4 v.toNat, by simp⟩

/-- `u32::from_be_bytes`.  Used in src/bip32/prefix.rs:83, src/bip32/extended_key/mod.rs:81 and src/bip32/child_number.rs:35. -/
def u32FromBE (b : ByteArr 4) : BitVec 32 := BitVec.ofNat 32 (beNat b.1)

/-- The hash functions the crate links against, as arbitrary functions of the right output size
(`sha2::Sha256`, `sha2::Sha512`, `ripemd::Ripemd160`).  Every theorem holds for every choice.
Used in src/bip39/crypto.rs:19, 40, src/bip32/mod.rs:40, src/bip32/public_key.rs:32 and src/crypto.rs:6-12. -/
structure Hashes where
  sha256 : Bytes → ByteArr 32
  sha512 : Bytes → ByteArr 64
  ripemd160 : Bytes → ByteArr 20

end Kms
