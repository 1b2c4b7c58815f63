import Verif.Props.Malleability
import Verif.Props.Unwind
import Verif.Props.KeysMore
/-
C131: a signature by one key is a signature by the keys derived from it, of other messages.
-/
namespace Kms.Props
open Kms.Bip32 Kms.Spec Kms.Spec.Bip32 Kms.Spec.Ecdsa
open Kms.Spec.Secp (Point G n p HasCoords)
open Kms.Secp (SecretKey)

theorem smul_mod {a b : Nat} (h : a % n = b % n) : a • G = b • G := Secp.smul_G_inj.2 h

theorem verifies_shift {Q : Point} {t m m' r s : Nat} (hm : m % n = (m' + r * t) % n) :
    Verifies Q m r s ↔ Verifies (Q + t • G) m' r s := by
  have e : ∀ w, (m * w) • G + (r * w) • Q = (m' * w) • G + (r * w) • (Q + t • G) := by
    intro w
    have : (m * w) • G = (m' * w + r * w * t) • G := by
      apply smul_mod
      rw [Nat.mul_mod, hm, ← Nat.mul_mod]
      congr 1
      ring
    rw [this, add_nsmul, nsmul_add, mul_nsmul' G (r * w) t]
    abel
  unfold Verifies
  simp only [e]

theorem recovers_shift {Q : Point} {t m m' r s v : Nat} (hm : m % n = (m' + r * t) % n) :
    Recovers Q m r s v ↔ Recovers (Q + t • G) m' r s v := by
  have e : ∀ w (R : Point), r * w % n = 1 → (Q = w • (s • R - m • G) ↔ Q + t • G = w • (s • R - m' • G)) := by
    intro w R hw
    have h1 : m • G = m' • G + (r * t) • G := by rw [← add_nsmul]; exact smul_mod hm
    have h2 : t • G = w • (r * t) • G := by
      rw [← mul_nsmul']
      apply smul_mod
      rw [← mul_assoc, Nat.mul_mod, mul_comm w, hw, one_mul, Nat.mod_mod]
    rw [h1, ← sub_sub, nsmul_sub (s • R - m' • G), ← h2, eq_sub_iff_add_eq]
  unfold Recovers
  refine and_congr_right fun _ => ?_
  constructor
  · rintro ⟨R, x, y, w, a, b, c, d, f⟩
    exact ⟨R, x, y, w, a, b, c, d, (e w R d).1 f⟩
  · rintro ⟨R, x, y, w, a, b, c, d, f⟩
    exact ⟨R, x, y, w, a, b, c, d, (e w R d).2 f⟩

/-- **C131** Whoever knows an extended public key knows, for every path of derivation from it, a number t such that (r, s) is a
signature of the message m' by the derived key exactly if it is a signature of m' + r t by the key itself, and the same for the
recovery of the keys. -/
theorem C131_transfer (H : Hashes) (path : DerivationPath) (K C : XPub) (Q Q' : Point)
    (hQ : HasCoords Q K.publicKey.x K.publicKey.y) (h : K.deriveFromPath H path = .ok C)
    (hQ' : HasCoords Q' C.publicKey.x C.publicKey.y) :
    let t := publicTweak (specHash H) K.attrs.chainCode.1 Q (path.iter.map (·.n.toNat))
    ∀ m m' r s, m % n = (m' + r * t) % n →
      (Verifies Q m r s ↔ Verifies Q' m' r s) ∧ ∀ v, (Recovers Q m r s v ↔ Recovers Q' m' r s v) := by
  intro t m m' r s hm
  have : Q' = Q + t • G := point_unique hQ' ((C65_unwind H path).1 K C Q hQ h) rfl
  rw [this]
  exact ⟨verifies_shift hm, fun v => recovers_shift hm⟩

/-- **C131** So a signature that `ecdsa_sign` returned, with r not zero, is also one of another message of 32 bytes by every key
derived from the signer without hardened steps, and by every key the signer is so derived from: everyone who has the extended
public key of the upper one can compute that message. It is the same message modulo n only if the keys are the same. -/
theorem C131_signatures_carry_over (H : Hashes) (path : DerivationPath) (k c : XPrv) (hpath : ∀ i ∈ path.iter, i.n.toNat < 2 ^ 31)
    (hd : k.deriveFromPath H path = .ok c) (Q Q' : Point)
    (hQ : HasCoords Q k.publicKey.publicKey.x k.publicKey.publicKey.y)
    (hQ' : HasCoords Q' c.publicKey.publicKey.x c.publicKey.publicKey.y)
    (debug : Bool) (fuel : Nat) (msg : Bytes) (sig : ByteArr 64) (v : UInt8) (hr0 : sig.1.take 32 ≠ List.replicate 32 0) :
    let t := publicTweak (specHash H) k.publicKey.attrs.chainCode.1 Q (path.iter.map (·.n.toNat))
    let m := bytesVal msg
    let r := bytesVal (sig.1.take 32)
    let s := bytesVal (sig.1.drop 32)
    (ecdsaSign H debug fuel k.toSecretKey msg = some (.ok (sig, v)) →
      ∃ msg' : Bytes, msg'.length = 32 ∧ bytesVal msg' = (m + (n - r * t % n)) % n ∧
        Verifies Q' (bytesVal msg') r s ∧ Recovers Q' (bytesVal msg') r s v.toNat ∧
        (bytesVal msg' % n = m % n ↔ Q' = Q)) ∧
    (ecdsaSign H debug fuel c.toSecretKey msg = some (.ok (sig, v)) →
      ∃ msg' : Bytes, msg'.length = 32 ∧ bytesVal msg' = (m + r * t) % n ∧
        Verifies Q (bytesVal msg') r s ∧ Recovers Q (bytesVal msg') r s v.toNat ∧
        (bytesVal msg' % n = m % n ↔ Q' = Q)) := by
  intro t m r s
  have h3 := (C31_public_matches_private H k).2 path hpath
  rw [hd, Res.map_ok] at h3
  have hT := C131_transfer H path k.publicKey c.publicKey Q Q' hQ h3.symm hQ'
  have hQQ : Q' = Q + t • G := point_unique hQ' ((C65_unwind H path).1 _ _ Q hQ h3.symm) rfl
  have hQk : Q = k.privateKey.k • G := point_unique hQ (publicKey_coords k) rfl
  have hQc : Q' = c.privateKey.k • G := point_unique hQ' (publicKey_coords c) rfl
  have npos : 0 < n := by decide
  have n256 : n < 2 ^ 256 := by decide
  have hval : ∀ a, bytesVal (ser256 (a % n)) = a % n := fun a => ser256_val (by have := Nat.mod_lt a npos; omega)
  -- r is not zero, and t is zero modulo n only if the keys are the same
  have key : ∀ {sk : SecretKey}, ecdsaSign H debug fuel sk msg = some (.ok (sig, v)) →
      (Verifies (sk.k • G) m r s ∧ Recovers (sk.k • G) m r s v.toNat) ∧ ((r * t) % n = 0 ↔ Q' = Q) := by
    intro sk hs
    obtain ⟨h1, _, _, _, h5, _⟩ := C130_other_signatures H debug fuel sk msg sig v hs hr0
    refine ⟨⟨h1, (h5 _ _ h1.2.2.1 h1.2.2.2.1 rfl).2 (.inl ⟨rfl, rfl⟩)⟩, ?_⟩
    rw [hQQ, add_eq_left, Secp.smul_G_eq_zero, ← Nat.dvd_iff_mod_eq_zero, Spec.Secp.n_prime.dvd_mul]
    have : ¬ n ∣ r := fun hd => absurd (Nat.le_of_dvd h1.1 hd) (Nat.not_le.2 h1.2.1)
    tauto
  have hmod : (m + (n - r * t % n) + r * t) % n = m % n := by
    have h1 := Nat.div_add_mod (r * t) n
    have h2 := Nat.mod_lt (r * t) npos
    have : m + (n - r * t % n) + r * t = m + n * (r * t / n + 1) := by
      rw [Nat.mul_add]
      omega
    rw [this, Nat.add_mul_mod_self_left]
  refine ⟨fun hs => ?_, fun hs => ?_⟩
  · obtain ⟨⟨a, b⟩, e⟩ := key hs
    refine ⟨ser256 ((m + (n - r * t % n)) % n), by simp [ser256], hval _, ?_⟩
    rw [hval]
    have hm : m % n = ((m + (n - r * t % n)) % n + r * t) % n := by rw [Nat.mod_add_mod, hmod]
    obtain ⟨f, g⟩ := hT m _ r s hm
    have hk : k.toSecretKey.k • G = Q := hQk.symm
    rw [hk] at a b
    refine ⟨f.1 a, (g _).1 b, ?_⟩
    rw [← e, Nat.mod_mod]
    constructor
    · intro h0
      have h1 : m + (n - r * t % n) ≡ m + 0 [MOD n] := h0
      have h2 := (Nat.modEq_zero_iff_dvd).1 (Nat.ModEq.add_left_cancel' m h1)
      have h3 := Nat.mod_lt (r * t) npos
      have h4 := Nat.le_of_dvd (by omega) h2
      omega
    · intro h0
      rw [h0, Nat.sub_zero, Nat.add_mod_right]
  · obtain ⟨⟨a, b⟩, e⟩ := key hs
    refine ⟨ser256 ((m + r * t) % n), by simp [ser256], hval _, ?_⟩
    rw [hval]
    obtain ⟨f, g⟩ := hT ((m + r * t) % n) m r s (Nat.mod_mod _ _)
    have hc : c.toSecretKey.k • G = Q' := hQc.symm
    rw [hc] at a b
    refine ⟨f.2 a, (g _).2 b, ?_⟩
    rw [← e, Nat.mod_mod]
    constructor
    · intro h0
      have : (m + r * t) ≡ m + 0 [MOD n] := h0
      exact Nat.ModEq.add_left_cancel' m this
    · intro h0
      rw [Nat.add_mod, h0, Nat.add_zero, Nat.mod_mod]

-- keys to which this applies: the key 1 derives the key 3 along m/5, and both sign 32 zero bytes
example : exKey.deriveFromPath watchHash ⟨[⟨5⟩]⟩ = .ok watchChild ∧
    (∃ sig v, ecdsaSign watchHash true 1 exKey.toSecretKey (List.replicate 32 0) = some (.ok (sig, v)) ∧
      sig.1.take 32 ≠ List.replicate 32 0) ∧
    ∃ sig v, ecdsaSign watchHash true 1 watchChild.toSecretKey (List.replicate 32 0) = some (.ok (sig, v)) ∧
      sig.1.take 32 ≠ List.replicate 32 0 := by
  have h : ∀ k : SecretKey, (match ecdsaSign watchHash true 1 k (List.replicate 32 0) with
      | some (.ok (sig, _)) => decide (sig.1.take 32 ≠ List.replicate 32 0)
      | _ => false) = true → ∃ sig v, ecdsaSign watchHash true 1 k (List.replicate 32 0) = some (.ok (sig, v)) ∧
      sig.1.take 32 ≠ List.replicate 32 0 := by
    intro k h
    split at h
    · rename_i sig v heq
      exact ⟨sig, v, heq, of_decide_eq_true h⟩
    · cases h
  exact ⟨by decide +kernel, h _ (by decide +kernel), h _ (by decide +kernel)⟩

end Kms.Props
