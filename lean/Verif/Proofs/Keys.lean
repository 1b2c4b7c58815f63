import Verif.Model.Keys
import Verif.Spec.Bip32
import Verif.Proofs.SecpCount
import Verif.Proofs.Seed
import Verif.Proofs.ExtendedKey
/-
Lemmas about extended keys.
-/
namespace Kms
open Kms.Secp (SecretKey)
open Kms.Spec.Secp (E F Point HasCoords)

/-- The hash functions, as the specification wants them. -/
def specHash (H : Hashes) : Spec.Bip32.Hash := ⟨fun b => (H.sha256 b).1, fun b => (H.sha512 b).1, fun b => (H.ripemd160 b).1⟩

theorem bytesVal_eq (b : Bytes) : Spec.bytesVal b = beNat b := by
  unfold Spec.bytesVal beNat
  congr 1
  funext a x
  rw [Nat.mul_comm]

theorem natBE_range (m v : Nat) : natBE m v = (List.range m).map (fun i => UInt8.ofNat (v / 256 ^ (m - 1 - i))) := by
  induction m with
  | zero => rfl
  | succ m ih =>
    rw [List.range_succ_eq_map, List.map_cons, List.map_map, natBE, ih]
    congr 1
    apply List.map_congr_left
    intro i hi
    have : m - 1 - i = m + 1 - 1 - (i + 1) := by omega
    simp only [Function.comp, Nat.succ_eq_add_one, this]

theorem ser256_eq (v : Nat) : Spec.Bip32.ser256 v = natBE 32 v := (natBE_range 32 v).symm

theorem ser32_eq (c : Bip32.ChildNumber) : Spec.Bip32.ser32 c.n.toNat = c.toBytes.1 := by
  unfold Spec.Bip32.ser32 Spec.be4 Bip32.ChildNumber.toBytes u32ToBE
  simp [natBE]

namespace Secp

theorem rep_coords {P : PublicKey} {Q : Point} : Rep P.pt Q ↔ HasCoords Q P.x P.y := by
  constructor
  · intro h
    obtain ⟨hx, hy, h', rfl⟩ := Rep_some.1 h
    rw [p_eq] at hx hy
    exact ⟨ZMod.val_cast_of_lt hx, ZMod.val_cast_of_lt hy⟩
  · intro h
    match Q, h with
    | .some a b hab, h =>
      obtain ⟨h1, h2⟩ := h
      apply Rep_some.2
      refine ⟨h1 ▸ val_lt a, h2 ▸ val_lt b, ?_⟩
      have ha : (P.x : F) = a := by rw [← h1, ZMod.natCast_zmod_val]
      have hb : (P.y : F) = b := by rw [← h2, ZMod.natCast_zmod_val]
      simp only [ha, hb]
      exact ⟨hab, trivial⟩

theorem serP_eq {P : PublicKey} {Q : Point} (h : Rep P.pt Q) : P.serializeCompressed.1 = Spec.Bip32.serP Q := by
  have h := rep_coords.1 h
  match Q, h with
  | .some a b hab, h =>
    obtain ⟨h1, h2⟩ := h
    simp only [PublicKey.serializeCompressed, Spec.Bip32.serP, h1, h2, ser256_eq]
    congr 1
    by_cases hy : P.y % 2 = 1
    · rw [if_pos hy, if_neg (by omega)]
    · rw [if_neg hy, if_pos (by omega)]

theorem ofPublic_unique {P R : PublicKey} {Q : Point} (h1 : Rep P.pt Q) (h2 : Rep R.pt Q) : P = R := by
  obtain ⟨v, hv⟩ := PublicKey.rep_iff.1 h1
  obtain ⟨w, hw⟩ := PublicKey.rep_iff.1 h2
  exact PublicKey.point_inj v w (hv.trans hw.symm)

theorem valid_of_rep {P : PublicKey} {Q : Point} (h : Rep P.pt Q) : P.Valid := (PublicKey.rep_iff.1 h).1

theorem fromSecretKey_valid (s : SecretKey) : (PublicKey.fromSecretKey s).Valid := valid_of_rep (fromSecretKey_rep s)

end Secp

namespace Bip32

/-- the two halves of an HMAC-SHA512 result -/
def left (r : ByteArr 64) : ByteArr 32 := ⟨r.1.take 32, by simp [r.2]⟩
def right (r : ByteArr 64) : ByteArr 32 := ⟨r.1.drop 32, by simp [r.2]⟩

theorem tryInto_left {ε : Type} (e : ε) (r : ByteArr 64) : tryIntoArr 32 e (r.1.take KEY_SIZE) = .ok (left r) :=
  tryIntoArr_ok (left r).2
theorem tryInto_right {ε : Type} (e : ε) (r : ByteArr 64) : tryIntoArr 32 e (r.1.drop KEY_SIZE) = .ok (right r) :=
  tryIntoArr_ok (right r).2

theorem checkedSucc_cases (d : UInt8) :
    (d.toNat < 255 ∧ checkedSucc d = some (d + 1) ∧ (d + 1).toNat = d.toNat + 1) ∨ (d.toNat = 255 ∧ checkedSucc d = none) := by
  have := d.toNat_lt
  unfold checkedSucc
  by_cases h : d.toNat + 1 < 256
  · left
    refine ⟨by omega, if_pos h, ?_⟩
    rw [UInt8.toNat_add]
    simp only [UInt8.toNat_one] at *
    omega
  · right
    exact ⟨by omega, if_neg h⟩

theorem PrivateKey.deriveChild_cases (k : SecretKey) (b : ByteArr 32) :
    ((beNat b.1 = 0 ∨ Secp.n ≤ beNat b.1) ∧ deriveChild k b = .panic) ∨
    ((0 < beNat b.1 ∧ beNat b.1 < Secp.n) ∧ (beNat b.1 + k.k) % Secp.n = 0 ∧ deriveChild k b = .err .crypto) ∨
    ((0 < beNat b.1 ∧ beNat b.1 < Secp.n) ∧ (beNat b.1 + k.k) % Secp.n ≠ 0 ∧
      ∃ u, deriveChild k b = .ok u ∧ u.k = (beNat b.1 + k.k) % Secp.n) := by
  unfold deriveChild
  by_cases h : 0 < beNat b.1 ∧ beNat b.1 < Secp.n
  · right
    rw [SecretKey.parse_ok h]
    rcases SecretKey.tweakAdd_cases k ⟨beNat b.1, h.1, h.2⟩ with ⟨u, hu, hk⟩ | ⟨he, hz⟩
    · right
      refine ⟨h, ?_, u, ?_, ?_⟩
      · rw [Nat.add_comm, ← hk]; exact Nat.pos_iff_ne_zero.1 u.pos
      · simp only [unwrap, Res.ok_bind, hu]; rfl
      · rw [hk, Nat.add_comm]
    · left
      refine ⟨h, ?_, ?_⟩
      · rw [Nat.add_comm]; exact hz
      · simp only [unwrap, Res.ok_bind, he]; rfl
  · left
    rw [SecretKey.parse_err h]
    exact ⟨by omega, rfl⟩

/-- Tweaking commutes with taking public keys, as outcomes. -/
theorem deriveChild_public (k : SecretKey) (b : ByteArr 32) :
    PublicKey.deriveChild (PrivateKey.publicKey k) b = (PrivateKey.deriveChild k b).map PrivateKey.publicKey := by
  unfold PublicKey.deriveChild PrivateKey.deriveChild PrivateKey.publicKey
  by_cases h : 0 < beNat b.1 ∧ beNat b.1 < Secp.n
  · rw [SecretKey.parse_ok h]
    simp only [unwrap, Res.ok_bind, Secp.tweak_commutes]
    rcases SecretKey.tweakAdd_cases k ⟨beNat b.1, h.1, h.2⟩ with ⟨u, hu, hk⟩ | ⟨he, hz⟩
    · rw [hu]; rfl
    · rw [he]; rfl
  · rw [SecretKey.parse_err h]; rfl

theorem PublicKey.deriveChild_cases {P : Secp.PublicKey} {Q : Point} (hP : Secp.Rep P.pt Q) (b : ByteArr 32) :
    ((beNat b.1 = 0 ∨ Secp.n ≤ beNat b.1) ∧ deriveChild P b = .panic) ∨
    ((0 < beNat b.1 ∧ beNat b.1 < Secp.n) ∧ Q + beNat b.1 • Spec.Secp.G = 0 ∧ deriveChild P b = .err .crypto) ∨
    ((0 < beNat b.1 ∧ beNat b.1 < Secp.n) ∧ Q + beNat b.1 • Spec.Secp.G ≠ 0 ∧
      ∃ P', deriveChild P b = .ok P' ∧ Secp.Rep P'.pt (Q + beNat b.1 • Spec.Secp.G)) := by
  unfold deriveChild
  by_cases h : 0 < beNat b.1 ∧ beNat b.1 < Secp.n
  · right
    rw [SecretKey.parse_ok h]
    rcases Secp.PublicKey.tweakAdd_rep ⟨beNat b.1, h.1, h.2⟩ hP with ⟨P', h1, h2⟩ | ⟨h1, h2⟩
    · right
      refine ⟨h, Secp.rep_ne_zero h2, P', ?_, h2⟩
      simp only [unwrap, Res.ok_bind, h1]; rfl
    · left
      refine ⟨h, h2, ?_⟩
      simp only [unwrap, Res.ok_bind, h1]; rfl
  · left
    rw [SecretKey.parse_err h]
    exact ⟨by omega, rfl⟩

theorem publicKey_bytes (k : SecretKey) :
    (PublicKey.toBytes (PrivateKey.publicKey k)).1 = Spec.Bip32.serP (k.k • Spec.Secp.G) :=
  Secp.serP_eq (Secp.fromSecretKey_rep k)

theorem fingerprint_eq (H : Hashes) {P : Secp.PublicKey} {Q : Point} (h : Secp.Rep P.pt Q) :
    (PublicKey.fingerprint H P).1 = Spec.Bip32.fingerprint (specHash H) Q := by
  show ((H.ripemd160 (H.sha256 P.serializeCompressed.1).1).1).take 4 = _
  rw [Secp.serP_eq h]
  rfl

namespace XPrv

theorem hmacInput_eq (k : XPrv) (i : ChildNumber) : k.hmacInput i = Spec.Bip32.data k.privateKey.k i.n.toNat := by
  unfold hmacInput Spec.Bip32.data
  by_cases h : i.isHardened = true
  · rw [if_pos h, if_pos ((ChildNumber.isHardened_iff i).1 h), ser32_eq, ser256_eq]
    rfl
  · rw [if_neg h, if_neg (fun h' => h ((ChildNumber.isHardened_iff i).2 h')), ser32_eq, publicKey_bytes]

theorem hmac_eq (H : Hashes) (k : XPrv) (i : ChildNumber) :
    (H.hmacSha512 k.attrs.chainCode.1 (k.hmacInput i)).1 =
      Spec.Bip32.I (specHash H) k.attrs.chainCode.1 k.privateKey.k i.n.toNat := by
  rw [hmacInput_eq]
  exact hmacSha512_spec H _ _

theorem deriveChild_eq (H : Hashes) (k : XPrv) (i : ChildNumber) :
    k.deriveChild H i = (do
      let depth ← Res.ofOption Error.depth (checkedSucc k.attrs.depth)
      let privateKey ← PrivateKey.deriveChild k.privateKey (left (H.hmacSha512 k.attrs.chainCode.1 (k.hmacInput i)))
      .ok ⟨privateKey, ⟨depth, PublicKey.fingerprint H (PrivateKey.publicKey k.privateKey), i,
        right (H.hmacSha512 k.attrs.chainCode.1 (k.hmacInput i))⟩⟩) := by
  unfold deriveChild
  simp only [tryInto_left, tryInto_right, Res.ok_bind]

end XPrv

namespace XPub

theorem deriveChild_eq (H : Hashes) (k : XPub) (i : ChildNumber) :
    k.deriveChild H i = if i.isHardened then .err .childNumber else (do
      let depth ← Res.ofOption Error.depth (checkedSucc k.attrs.depth)
      let publicKey ← PublicKey.deriveChild k.publicKey
        (left (H.hmacSha512 k.attrs.chainCode.1 ((PublicKey.toBytes k.publicKey).1 ++ i.toBytes.1)))
      .ok ⟨publicKey, ⟨depth, PublicKey.fingerprint H k.publicKey, i,
        right (H.hmacSha512 k.attrs.chainCode.1 ((PublicKey.toBytes k.publicKey).1 ++ i.toBytes.1))⟩⟩) := by
  unfold deriveChild
  simp only [tryInto_left, tryInto_right, Res.ok_bind]

theorem hmac_eq (H : Hashes) {k : XPub} {Q : Point} (h : Secp.Rep k.publicKey.pt Q) (i : ChildNumber) :
    (H.hmacSha512 k.attrs.chainCode.1 ((PublicKey.toBytes k.publicKey).1 ++ i.toBytes.1)).1 =
      Spec.Bip32.Ipub (specHash H) k.attrs.chainCode.1 Q i.n.toNat := by
  rw [hmacSha512_spec]
  unfold Spec.Bip32.Ipub
  rw [ser32_eq, ← Secp.serP_eq h]
  rfl

end XPub
end Bip32
end Kms
