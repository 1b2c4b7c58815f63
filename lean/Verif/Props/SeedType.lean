import Verif.Model.SeedType
import Verif.Props.DerivationMore
/-
C112: what `XPrv::new` and `new_from_path` ask of a caller's own type of seeds.
-/
namespace Kms.Props
open Kms.Bip32 Kms.Spec Kms.Spec.Bip32
open Kms.Spec.Secp (n)

/-- **C112** `XPrv::new` asks a seed for its bytes once or twice.  A panic of the seed is passed on.  The first answer only
decides about `SeedLength`, and then the seed is not asked again.  The key is made of the second answer, whatever its length:
BIP32's master key, or `Crypto` if there is none. -/
theorem C112_seed_asked_twice {σ : Type} (S : SeedType σ) (H : Hashes) (seed s1 s2 : σ) :
    (S.asRef seed = (.panic, s1) → XPrv.newFrom S H seed = (.panic, s1, [.panic])) ∧
    (∀ a, S.asRef seed = (.ok a, s1) → a.length ∉ [16, 32, 64, 128] →
      XPrv.newFrom S H seed = (.err .seedLength, s1, [.ok a])) ∧
    (∀ a, S.asRef seed = (.ok a, s1) → a.length ∈ [16, 32, 64, 128] → S.asRef s1 = (.panic, s2) →
      XPrv.newFrom S H seed = (.panic, s2, [.ok a, .panic])) ∧
    (∀ a b, S.asRef seed = (.ok a, s1) → a.length ∈ [16, 32, 64, 128] → S.asRef s1 = (.ok b, s2) →
      let I := master (specHash H) b
      (XPrv.newFrom S H seed).2 = (s2, [.ok a, .ok b]) ∧
      ((IL I = 0 ∨ n ≤ IL I) ∧ (XPrv.newFrom S H seed).1 = .err .crypto ∨
        ∃ k, (XPrv.newFrom S H seed).1 = .ok k ∧ k.privateKey.k = IL I ∧ k.attrs.chainCode.1 = IR I ∧
          k.attrs.depth.toNat = 0 ∧ k.attrs.childNumber = ⟨0⟩ ∧ k.attrs.parentFingerprint.1 = [0, 0, 0, 0])) := by
  refine ⟨?_, ?_, ?_, ?_⟩
  · intro h
    unfold XPrv.newFrom
    rw [h]
  · intro a h ha
    unfold XPrv.newFrom
    rw [h]
    simp only
    rw [if_pos (by simp at ha ⊢; omega)]
  · intro a h ha h2
    unfold XPrv.newFrom
    rw [h]
    simp only
    rw [if_neg (by simp at ha ⊢; omega), h2]
  · intro a b h ha h2 J
    have hnew : XPrv.newFrom S H seed = ((do
        let privateKey ← PrivateKey.fromBytes (left (H.hmacSha512 BIP39_DOMAIN_SEPARATOR b))
        .ok ⟨privateKey, ⟨0, zeroArr 4, ChildNumber.default, right (H.hmacSha512 BIP39_DOMAIN_SEPARATOR b)⟩⟩),
        s2, [.ok a, .ok b]) := by
      unfold XPrv.newFrom
      rw [h]
      simp only
      rw [if_neg (by simp at ha ⊢; omega), h2]
      simp only [tryInto_left, tryInto_right, Res.ok_bind]
    have hJ : (H.hmacSha512 BIP39_DOMAIN_SEPARATOR b).1 = J := by
      show _ = Spec.hmac _ _ b
      rw [hmacSha512_spec]
      congr 1
    have hL : beNat (left (H.hmacSha512 BIP39_DOMAIN_SEPARATOR b)).1 = IL J := by
      unfold IL parse256
      rw [bytesVal_eq, ← hJ]
      rfl
    have hR : (right (H.hmacSha512 BIP39_DOMAIN_SEPARATOR b)).1 = IR J := by
      unfold IR
      rw [← hJ]
      rfl
    rw [hnew]
    refine ⟨rfl, ?_⟩
    unfold PrivateKey.fromBytes
    by_cases hr : 0 < IL J ∧ IL J < n
    · rw [Secp.SecretKey.parse_ok (by rw [hL]; exact hr)]
      exact .inr ⟨_, rfl, hL, hR, rfl, rfl, rfl⟩
    · rw [Secp.SecretKey.parse_err (by rw [hL]; exact hr)]
      exact .inl ⟨by omega, rfl⟩

/-- **C112** For a seed that answers the same each time (a slice, an array, a vector, a `Seed`), `new` is the function of the
bytes of which C36 speaks. -/
theorem C112_constant_seed {σ : Type} (S : SeedType σ) (H : Hashes) (seed : σ) (b : Bytes)
    (h : ∀ s, S.asRef s = (.ok b, s)) (path : DerivationPath) :
    (XPrv.newFrom S H seed).1 = XPrv.new H b ∧ (XPrv.newFrom S H seed).2.1 = seed ∧
    (XPrv.newFromPathFrom S H seed path).1 = XPrv.newFromPath H b path := by
  have h1 : (XPrv.newFrom S H seed).1 = XPrv.new H b ∧ (XPrv.newFrom S H seed).2.1 = seed := by
    unfold XPrv.newFrom XPrv.new
    rw [h]
    simp only
    split
    · exact ⟨rfl, rfl⟩
    · rw [h]
      exact ⟨rfl, rfl⟩
  refine ⟨h1.1, h1.2, ?_⟩
  unfold XPrv.newFromPathFrom XPrv.newFromPath
  simp only [h1.1]

/-- **C112** A path does not make `new_from_path` ask the seed again: it is `new` followed by `derive_from_path`. -/
theorem C112_path_asks_no_more {σ : Type} (S : SeedType σ) (H : Hashes) (seed : σ) (path : DerivationPath) :
    (XPrv.newFromPathFrom S H seed path).2 = (XPrv.newFrom S H seed).2 ∧
    (XPrv.newFromPathFrom S H seed path).1 = (XPrv.newFrom S H seed).1 >>= fun k => k.deriveFromPath H path := by
  refine ⟨rfl, ?_⟩
  unfold XPrv.newFromPathFrom XPrv.deriveFromPath
  simp only
  generalize path.iter = l
  cases (XPrv.newFrom S H seed).1 with
  | ok k => rfl
  | err e =>
    induction l with
    | nil => rfl
    | cons c l ih => exact ih
  | panic =>
    induction l with
    | nil => rfl
    | cons c l ih => exact ih

/-- A seed that shows 64 bytes when measured and none when hashed. -/
def shrinkingSeed : SeedType Nat where
  asRef s := (.ok (if s = 0 then List.replicate 64 1 else []), s + 1)

/-- **C112** So the check of the length does not bind such a type: a key is made of no bytes at all, which `new` refuses as
a slice. -/
theorem C112_length_not_enforced :
    (XPrv.newFrom shrinkingSeed (constHash 5) 0).1.map (·.privateKey.k) = .ok 5 ∧
    (XPrv.newFrom shrinkingSeed (constHash 5) 0).2 = (2, [.ok (List.replicate 64 1), .ok []]) ∧
    XPrv.new (constHash 5) [] = .err .seedLength := by
  decide +kernel

-- all the cases of the first theorem occur
example : (XPrv.newFrom (σ := Nat) ⟨fun s => (.panic, s + 1)⟩ (constHash 5) 0) = (.panic, 1, [.panic]) ∧
    (XPrv.newFrom (σ := Nat) ⟨fun s => (.ok (List.replicate s 0), s + 1)⟩ (constHash 5) 0) = (.err .seedLength, 1, [.ok []]) ∧
    (XPrv.newFrom (σ := Nat) ⟨fun s => (if s = 16 then .ok (List.replicate 16 0) else .panic, s + 1)⟩ (constHash 5) 16) =
      (.panic, 18, [.ok (List.replicate 16 0), .panic]) ∧
    (XPrv.newFrom (σ := Nat) ⟨fun s => (.ok (List.replicate 16 0), s + 1)⟩ (constHash 0) 0) =
      (.err .crypto, 2, [.ok (List.replicate 16 0), .ok (List.replicate 16 0)]) := by
  refine ⟨?_, ?_, ?_, ?_⟩ <;> decide +kernel

-- a slice
example : ∃ S : SeedType Bytes, ∀ b, S.asRef b = (.ok b, b) := ⟨⟨fun b => (.ok b, b)⟩, fun _ => rfl⟩

end Kms.Props
