import Verif.Proofs.ExtendedKey
/-
Which letters a version prints as.
-/
namespace Kms.Bip32
open Kms.Base58

/-- The four characters for a number below 58^4 (its digits in base 58). -/
def chars58 (c : Nat) : Str := ((Nat.digits 58 c).map (fun d => alphabet.getD d '1')).reverse

theorem zerosB_of_ge {v : Nat} (h : 16777216 ≤ v) (hv : v < 2 ^ 32) (r : Bytes) : zerosB (natBE 4 v ++ r) = 0 := by
  have : natBE 4 v ++ r = UInt8.ofNat (v / 256 ^ 3) :: (natBE 3 v ++ r) := rfl
  rw [this]
  unfold zerosB
  rw [List.takeWhile_cons, if_neg]
  · rfl
  · have hne : UInt8.ofNat (v / 256 ^ 3) ≠ 0 := by
      intro h0
      have := congrArg UInt8.toNat h0
      simp at this
      omega
    simpa using hne

theorem beNat_version {v : Nat} (hv : v < 2 ^ 32) (r : Bytes) :
    beNat (natBE 4 v ++ r) = v * 256 ^ r.length + beNat r := by
  rw [beNat_append, beNat_natBE, Nat.mod_eq_of_lt (by rw [show (256 : Nat) ^ 4 = 2 ^ 32 by decide]; exact hv)]

/-- The first characters of the text of a payload whose version is `v` and whose remaining bytes are `r`. -/
theorem first_of {v c : Nat} (r : Bytes) (hr : r.length = 78) (hv : v < 2 ^ 32) (h24 : 16777216 ≤ v)
    (hlo : 58 ^ 110 ≤ v * 256 ^ 78) (hhi : (v + 1) * 256 ^ 78 ≤ 58 ^ 111)
    (hc : (v * 256 ^ 78 + beNat r) / 58 ^ 107 = c) :
    (text (natBE 4 v ++ r)).length = 111 ∧ (text (natBE 4 v ++ r)).take 4 = chars58 c := by
  have hrl := beNat_lt r
  rw [hr] at hrl
  have hval := beNat_version hv r
  rw [hr] at hval
  have hhi' : beNat (natBE 4 v ++ r) < 58 ^ 111 := by
    rw [hval]
    calc v * 256 ^ 78 + beNat r < v * 256 ^ 78 + 256 ^ 78 := Nat.add_lt_add_left hrl _
      _ = (v + 1) * 256 ^ 78 := by ring
      _ ≤ _ := hhi
  have := text_first (natBE 4 v ++ r) (zerosB_of_ge h24 hv r) (by rw [hval]; exact le_trans hlo (Nat.le_add_right _ _)) hhi'
  rw [hval, hc] at this
  exact this

/-- The same when the four characters do not depend on the remaining bytes. -/
theorem first_const {v c : Nat} (r : Bytes) (hr : r.length = 78) (hv : v < 2 ^ 32) (h24 : 16777216 ≤ v)
    (hlo : 58 ^ 110 ≤ v * 256 ^ 78) (hhi : (v + 1) * 256 ^ 78 ≤ 58 ^ 111)
    (hc : v * 256 ^ 78 / 58 ^ 107 = c) (hc' : ((v + 1) * 256 ^ 78 - 1) / 58 ^ 107 = c) :
    (text (natBE 4 v ++ r)).length = 111 ∧ (text (natBE 4 v ++ r)).take 4 = chars58 c := by
  apply first_of r hr hv h24 hlo hhi
  have hrl := beNat_lt r
  rw [hr] at hrl
  apply le_antisymm
  · rw [← hc']
    apply Nat.div_le_div_right
    rw [Nat.add_mul, Nat.one_mul]
    generalize 256 ^ 78 = B at *
    omega
  · rw [← hc]
    exact Nat.div_le_div_right (Nat.le_add_right _ _)

/-- The eight predefined prefixes. -/
def constants : List Prefix :=
  [.TPRV, .TPUB, .XPRV, .XPUB, .YPRV, .YPUB, .ZPRV, .ZPUB]

/-- Everything checked about a constant by arithmetic. -/
def constOk (p : Prefix) : Prop :=
  let v := p.version.toNat
  16777216 ≤ v ∧ 58 ^ 110 ≤ v * 256 ^ 78 ∧ (v + 1) * 256 ^ 78 ≤ 58 ^ 111 ∧
    v * 256 ^ 78 / 58 ^ 107 = ((v + 1) * 256 ^ 78 - 1) / 58 ^ 107 ∧
    (chars58 (v * 256 ^ 78 / 58 ^ 107)).map (fun c => UInt8.ofNat c.toNat) = p.chars.1 ∧
    (chars58 (v * 256 ^ 78 / 58 ^ 107)).all (fun c => decide ((97 ≤ c.toNat ∧ c.toNat ≤ 122) ∨ (65 ≤ c.toNat ∧ c.toNat ≤ 90)))

instance (p : Prefix) : Decidable (constOk p) := by unfold constOk; infer_instance

theorem constants_ok : ∀ p ∈ constants, constOk p := by decide +kernel

/-- Any payload with the version of a constant prints with its letters, on 111 characters. -/
theorem const_text {p : Prefix} (hp : p ∈ constants) (r : Bytes) (hr : r.length = 78) :
    (text (p.toBytes.1 ++ r)).length = 111 ∧
    ((text (p.toBytes.1 ++ r)).take 4).map (fun c => UInt8.ofNat c.toNat) = p.chars.1 ∧
    ∀ c ∈ (text (p.toBytes.1 ++ r)).take 4, Spec.Letter c := by
  obtain ⟨h24, hlo, hhi, hc, hch, hall⟩ := constants_ok p hp
  have h := first_const r hr p.version.isLt h24 hlo hhi rfl hc.symm
  have e : p.toBytes.1 = natBE 4 p.version.toNat := rfl
  rw [e]
  refine ⟨h.1, by rw [h.2]; exact hch, ?_⟩
  intro c hcm
  rw [h.2] at hcm
  rw [List.all_eq_true] at hall
  rw [letter_iff]
  exact of_decide_eq_true (hall c hcm)

/-- The text of the key whose bytes after the version are zero. -/
def zeroText (H : Hashes) (v : BitVec 32) : Str :=
  text ((u32ToBE v).1 ++ List.replicate 74 0 ++ checksum H ((u32ToBE v).1 ++ List.replicate 74 0))

theorem zeroText_len (H : Hashes) (v : BitVec 32) :
    ((u32ToBE v).1 ++ List.replicate 74 0 ++ checksum H ((u32ToBE v).1 ++ List.replicate 74 0)).length = 82 := by
  rw [List.length_append, List.length_append, (u32ToBE v).2, checksum_length, List.length_replicate]

/-- All outcomes of `from_version`. -/
theorem fromVersion_cases (H : Hashes) (v : BitVec 32) :
    (∃ h : ((zeroText H v).take 4).length = 4, (∀ c ∈ (zeroText H v).take 4, Spec.Letter c) ∧
      Prefix.fromVersion H v = .ok (mkPfx ((zeroText H v).take 4) h v)) ∨
    ((¬ ∀ c ∈ (zeroText H v).take 4, Spec.Letter c) ∧ Prefix.fromVersion H v = .err .decode) := by
  have hl := zeroText_len H v
  have hge := text_length_ge _ |>.trans' (le_of_eq hl.symm)
  have hle := text_length_le _ hl
  have henc : encodeCheck H 112 ((u32ToBE v).1 ++ List.replicate 74 0) = .ok (zeroText H v) := by
    unfold encodeCheck
    rw [(encodeInto_spec 112 _).1 hle]
    rfl
  change 82 ≤ (zeroText H v).length at hge
  have hasc : ∀ c ∈ zeroText H v, c.toNat < 128 := base58_ascii (text_spec _)
  have ht : ((zeroText H v).take 4).length = 4 := by rw [List.length_take]; omega
  have hbuf : (utf8 (zeroText H v) ++ List.replicate (112 - (utf8 (zeroText H v)).length) 0).take 4 =
      ((zeroText H v).take 4).map (fun c => UInt8.ofNat c.toNat) := by
    rw [utf8_ascii hasc, List.take_append_of_le_length (by simp; omega), List.map_take]
  have hstr := asciiStr_map (s := (zeroText H v).take 4) (fun c hc => hasc c (List.mem_of_mem_take hc))
  unfold Prefix.fromVersion
  simp only [henc, Res.mapErr_ok, Res.ok_bind, hbuf, hstr, Res.ofOption_some]
  by_cases hlet : ∀ c ∈ (zeroText H v).take 4, Spec.Letter c
  · refine Or.inl ⟨ht, hlet, ?_⟩
    rw [(validateStr_spec _).1 ⟨ht, hlet⟩]
    simp only [Res.ok_bind]
    exact fromParts_ok ht hlet v
  · refine Or.inr ⟨hlet, ?_⟩
    rw [(validateStr_spec _).2 (fun h => hlet h.2)]
    simp

end Kms.Bip32
