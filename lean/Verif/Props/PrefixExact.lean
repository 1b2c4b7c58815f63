import Verif.Props.ExtendedKey
/-
C47: exactly which versions determine the letters of every key written with them.
-/
namespace Kms.Props
open Kms.Spec Bip32
open Kms.Base58 (text zerosB alphabet)

/-- The first four characters of a text whose first character is not `1`. -/
theorem text_top (b : Bytes) (hz : zerosB b = 0) (L : Nat) (hL : (text b).length = L + 4) :
    58 ^ (L + 3) ≤ beNat b ∧ beNat b < 58 ^ (L + 4) ∧ (text b).take 4 = chars58 (beNat b / 58 ^ L) := by
  have ht : text b = ((Nat.digits 58 (beNat b)).map (fun d => alphabet.getD d '1')).reverse := by
    unfold text
    rw [hz, Base58.foldBytes_beNat]
    simp
  have hlen : (Nat.digits 58 (beNat b)).length = L + 4 := by rw [← hL, ht]; simp
  have h1 := (Nat.digits_length_le_iff (by decide : 1 < 58) (k := L + 4) (beNat b)).mp (by omega)
  have h2 := (Nat.lt_digits_length_iff (by decide : 1 < 58) (k := L + 3) (beNat b)).mp (by omega)
  have hdrop : Nat.digits 58 (beNat b / 58 ^ L) = (Nat.digits 58 (beNat b)).drop L := by
    rw [Nat.self_div_pow_eq_ofDigits_drop L (beNat b) (by decide : 2 ≤ 58)]
    apply Nat.digits_ofDigits 58 (by decide)
    · intro x hx
      exact Nat.digits_lt_base (by decide) (List.mem_of_mem_drop hx)
    · intro hne
      rw [List.getLast_drop]
      have hv : beNat b ≠ 0 := by
        intro h; rw [h] at hlen; simp at hlen
      exact Nat.getLast_digit_ne_zero 58 hv
  refine ⟨h2, h1, ?_⟩
  unfold chars58
  rw [hdrop, ht, List.take_reverse]
  congr 1
  rw [List.length_map, hlen, List.map_drop, show L + 4 - 4 = L by omega]

theorem chars58_inj {c d : Nat} (h : chars58 c = chars58 d) : c = d := by
  have h := List.reverse_injective h
  have key : ∀ l m : List Nat, (∀ x ∈ l, x < 58) → (∀ x ∈ m, x < 58) →
      l.map (fun d => alphabet.getD d '1') = m.map (fun d => alphabet.getD d '1') → l = m := by
    intro l
    induction l with
    | nil => intro m _ _ e; cases m <;> simp_all
    | cons x l ih =>
      intro m hl hm e
      cases m with
      | nil => simp at e
      | cons y m =>
        rw [List.map_cons, List.map_cons] at e
        have e1 := congrArg (fun c => alphabet.idxOf c) (List.cons.inj e).1
        simp only [Base58.idxOf_getD (hl x (by simp)), Base58.idxOf_getD (hm y (by simp))] at e1
        rw [e1, ih m (fun z hz => hl z (by simp [hz])) (fun z hz => hm z (by simp [hz])) (List.cons.inj e).2]
  exact Nat.digits_inj_iff.1 (key _ _ (fun x hx => Nat.digits_lt_base (by decide) hx) (fun x hx => Nat.digits_lt_base (by decide) hx) h)

/-- Numbers between two numbers with the same first four characters, less than a factor two apart, have them too. -/
theorem text_between {a b c : Bytes} (ha : zerosB a = 0) (hb : zerosB b = 0) (hc : zerosB c = 0) (hla : 4 ≤ (text a).length)
    (hlb : 4 ≤ (text b).length) (hlc : 4 ≤ (text c).length)
    (hab : beNat a ≤ beNat b) (hbc : beNat b ≤ beNat c) (h2 : beNat c < 2 * beNat a)
    (h : (text a).take 4 = (text c).take 4) : (text b).take 4 = (text a).take 4 := by
  obtain ⟨La, hLa⟩ := Nat.exists_eq_add_of_le' hla
  obtain ⟨Lb, hLb⟩ := Nat.exists_eq_add_of_le' hlb
  obtain ⟨Lc, hLc⟩ := Nat.exists_eq_add_of_le' hlc
  obtain ⟨a1, a2, a3⟩ := text_top a ha La hLa
  obtain ⟨b1, b2, b3⟩ := text_top b hb Lb hLb
  obtain ⟨c1, c2, c3⟩ := text_top c hc Lc hLc
  have hd : beNat a / 58 ^ La = beNat c / 58 ^ Lc := chars58_inj (by rw [← a3, ← c3, h])
  have l1 : La ≤ Lb := by
    have : 58 ^ (La + 3) < 58 ^ (Lb + 4) := a1.trans_lt (hab.trans_lt b2)
    have := (Nat.pow_lt_pow_iff_right (by decide)).1 this
    omega
  have l2 : Lb ≤ Lc := by
    have : 58 ^ (Lb + 3) < 58 ^ (Lc + 4) := b1.trans_lt (hbc.trans_lt c2)
    have := (Nat.pow_lt_pow_iff_right (by decide)).1 this
    omega
  have l3 : La = Lc := by
    by_contra hne
    have hlt : La + 1 ≤ Lc := by omega
    have hp : 58 ^ (La + 1) ≤ 58 ^ Lc := Nat.pow_le_pow_right (by decide) hlt
    have h0 : 0 < 58 ^ La := by positivity
    have hge : 58 ^ 3 ≤ beNat a / 58 ^ La := by
      rw [Nat.le_div_iff_mul_le h0, ← pow_add, Nat.add_comm]
      exact a1
    have u1 : beNat a < (beNat a / 58 ^ La + 1) * 58 ^ La := by
      rw [Nat.add_mul, Nat.one_mul]
      exact Nat.lt_div_mul_add h0
    have u2 : (beNat a / 58 ^ La) * 58 ^ Lc ≤ beNat c := by
      rw [hd]
      exact Nat.div_mul_le_self _ _
    revert hge u1 u2
    generalize beNat a / 58 ^ La = d
    intro hge u1 u2
    have u3 : d * 58 ^ (La + 1) ≤ beNat c := (Nat.mul_le_mul_left _ hp).trans u2
    have u4 : 2 * ((d + 1) * 58 ^ La) ≤ d * 58 ^ (La + 1) := by
      rw [pow_succ]
      calc 2 * ((d + 1) * 58 ^ La) = (2 * (d + 1)) * 58 ^ La := by ring
        _ ≤ (d * 58) * 58 ^ La := Nat.mul_le_mul_right _ (by omega)
        _ = _ := by ring
    omega
  have l4 : Lb = La := by omega
  subst l3
  subst l4
  rw [b3, a3]
  congr 1
  exact le_antisymm ((Nat.div_le_div_right hbc).trans hd.ge) (Nat.div_le_div_right hab)

/-- The number a payload stands for together with its checksum grows with the payload. -/
theorem payload_mono (f : Bytes → Bytes) (hf : ∀ b, (f b).length = 4) {a b : Bytes} (hl : a.length = b.length)
    (h : beNat a ≤ beNat b) : beNat (a ++ f a) ≤ beNat (b ++ f b) := by
  rcases Nat.lt_or_ge (beNat a) (beNat b) with hlt | hge
  · rw [beNat_append, beNat_append, hf, hf]
    have := beNat_lt (f a)
    rw [hf] at this
    calc beNat a * 256 ^ 4 + beNat (f a) ≤ beNat a * 256 ^ 4 + 256 ^ 4 := by omega
      _ = (beNat a + 1) * 256 ^ 4 := by ring
      _ ≤ beNat b * 256 ^ 4 := Nat.mul_le_mul_right _ hlt
      _ ≤ _ := Nat.le_add_right _ _
  · rw [beNat_inj hl (le_antisymm h hge)]

theorem beNat_replicate_ff (n : Nat) : beNat (List.replicate n 0xff) + 1 = 256 ^ n := by
  induction n with
  | zero => rfl
  | succ n ih =>
    rw [List.replicate_succ, beNat_cons, List.length_replicate, pow_succ, ← ih, show (0xff : UInt8).toNat = 255 from rfl]
    ring

/-- The key whose bytes after the version are all 255. -/
def lastKey (p : Prefix) : ExtendedKey :=
  ⟨p, ⟨255, ⟨List.replicate 4 255, by simp⟩, ⟨0xffffffff⟩, ⟨List.replicate 32 255, by simp⟩⟩, ⟨List.replicate 33 255, by simp⟩⟩

/-- **C47** Exactly which versions determine the letters: every key written with the prefix `try_from` gives for a version
parses back to itself if and only if the last of them, all of whose bytes after the version are 255, still begins with
the letters of the prefix. -/
theorem C47_exactly_which_versions (H : Hashes) (v : BitVec 32) (p : Prefix) (hp : Prefix.tryFromVersion H v = .ok p) :
    (∀ k : ExtendedKey, k.pfx = p → ∃ s, k.toString H = .ok s ∧ ExtendedKey.fromStr H s = .ok k) ↔
      ∃ s, (lastKey p).toString H = .ok s ∧ p.asStr = .ok (s.take 4) := by
  obtain ⟨z, hz, hz1, hz2⟩ := (C46_prefixes H).2.2.2.1 v
  have hlet : ∀ c ∈ z.take 4, Letter c := by
    by_contra hn
    rw [hz2 hn] at hp
    cases hp
  obtain ⟨p', e1, hv, hstr, h4, _⟩ := hz1 hlet
  rw [hp] at e1
  cases e1
  have hrt := fun k : ExtendedKey => (C47_version_determines_prefix_partial H k).2 (z.take 4) h4 hlet
  constructor
  · intro h
    obtain ⟨s, h1, h2⟩ := h (lastKey p) rfl
    exact ⟨s, h1, by rw [(hrt (lastKey p) hstr s h1).1 h2]; exact hstr⟩
  · rintro ⟨t, ht, htl⟩ k hk
    have htl : t.take 4 = z.take 4 := by
      rw [hstr] at htl
      exact (Res.ok.inj htl).symm
    obtain ⟨s, _, hb, _⟩ := ExtendedKey.writeBase58_ok H k
    have hs := (ExtendedKey.toString_iff H k s).mpr hb
    refine ⟨s, hs, (hrt k (by rw [hk]; exact hstr) s hs).2 ?_⟩
    have hbt := (ExtendedKey.toString_iff H _ t).mp ht
    -- the three texts stand for numbers with the same version
    let f : Bytes → Bytes := fun b => (sha256 H (sha256 H b)).take 4
    have hf : ∀ b, (f b).length = 4 := fun b => Base58.checksum_length H b
    have hsplit : ∀ k : ExtendedKey, k.pfx = p → ∃ r : Bytes, r.length = 74 ∧ k.serialize = natBE 4 v.toNat ++ r := by
      intro k hk
      refine ⟨[k.attrs.depth] ++ k.attrs.parentFingerprint.1 ++ k.attrs.childNumber.toBytes.1 ++ k.attrs.chainCode.1 ++ k.keyBytes.1, ?_, ?_⟩
      · simp only [List.length_append, k.attrs.parentFingerprint.2, k.attrs.childNumber.toBytes.2, k.attrs.chainCode.2,
          k.keyBytes.2, List.length_cons, List.length_nil]
      · unfold ExtendedKey.serialize Prefix.toBytes
        rw [hk, hv]
        simp only [List.append_assoc]
        rfl
    obtain ⟨r, hr, hser⟩ := hsplit k hk
    have hlast : (lastKey p).serialize = natBE 4 v.toNat ++ List.replicate 74 0xff := by
      have : (lastKey p).serialize = p.toBytes.1 ++ List.replicate 74 0xff := by
        have hc : (⟨0xffffffff⟩ : ChildNumber).toBytes.1 = List.replicate 4 255 := by decide
        unfold ExtendedKey.serialize lastKey
        simp only [hc, List.append_assoc]
        rfl
      rw [this, ← hv]
      rfl
    have hbe : be4 v.toNat = natBE 4 v.toNat := (be4_eq v).symm
    rw [hbe] at hz
    have zb : z = text ((natBE 4 v.toNat ++ List.replicate 74 0) ++ f (natBE 4 v.toNat ++ List.replicate 74 0)) := Base58.text_of hz
    have sb : s = text (k.serialize ++ f k.serialize) := Base58.text_of hb
    have tb : t = text ((lastKey p).serialize ++ f (lastKey p).serialize) := Base58.text_of hbt
    have hz0 : (natBE 4 v.toNat).head? ≠ some 0 := by
      intro h0
      have hlen : 4 ≤ z.length := by rw [List.length_take] at h4; omega
      obtain ⟨c, z', hc⟩ : ∃ c z', z = c :: z' := by
        match z, hlen with
        | c :: z', _ => exact ⟨c, z', rfl⟩
      have hne : c ≠ '1' := by
        rintro rfl
        have := hlet '1' (by rw [hc]; simp)
        rw [letter_iff] at this
        revert this
        decide
      have hzz := hz.zeros
      rw [hc, List.takeWhile_cons, if_neg (by simpa using hne)] at hzz
      obtain ⟨y, hy⟩ : ∃ y, natBE 4 v.toNat = 0 :: y := by
        cases h' : natBE 4 v.toNat with
        | nil => rw [h'] at h0; cases h0
        | cons x y => rw [h'] at h0; simp at h0; exact ⟨y, by rw [h0]⟩
      rw [hy] at hzz
      simp at hzz
    have hz1 : ∀ r, zerosB (natBE 4 v.toNat ++ r) = 0 := by
      intro r
      cases h' : natBE 4 v.toNat with
      | nil => cases h'
      | cons x y =>
        rw [h'] at hz0
        unfold zerosB
        rw [List.cons_append, List.takeWhile_cons, if_neg (by simpa using hz0)]
        rfl
    have hge : ∀ b : Bytes, 4 ≤ b.length → 4 ≤ (text b).length := fun b h => h.trans (text_length_ge b)
    have hvpos : 1 ≤ v.toNat := by
      by_contra h0
      have : v.toNat = 0 := by omega
      rw [this] at hz0
      exact hz0 rfl
    have hval : ∀ r : Bytes, r.length = 78 → beNat (natBE 4 v.toNat ++ r) = v.toNat * 256 ^ 78 + beNat r ∧ beNat r < 256 ^ 78 := by
      intro r hr
      have := beNat_lt r
      have e := beNat_version v.isLt r
      rw [hr] at this e
      exact ⟨e, this⟩
    have hord : ∀ r r' : Bytes, r.length = 74 → r'.length = 74 → beNat r ≤ beNat r' →
        beNat ((natBE 4 v.toNat ++ r) ++ f (natBE 4 v.toNat ++ r)) ≤ beNat ((natBE 4 v.toNat ++ r') ++ f (natBE 4 v.toNat ++ r')) := by
      intro r r' h1 h2 h
      apply payload_mono f hf
      · rw [List.length_append, List.length_append, h1, h2]
      · rw [beNat_append, beNat_append, h1, h2]
        exact Nat.add_le_add_left h _
    rw [hlast] at tb
    rw [hser] at sb
    have hff : beNat r ≤ beNat (List.replicate 74 0xff) := by
      have h1 := beNat_lt r
      rw [hr, ← beNat_replicate_ff] at h1
      omega
    have hzero : beNat (List.replicate 74 0) ≤ beNat r := by
      have := Base58.beNat_replicate_zero 74 []
      rw [List.append_nil] at this
      rw [this]
      exact Nat.zero_le _
    rw [sb, zb]
    apply text_between (c := (natBE 4 v.toNat ++ List.replicate 74 0xff) ++ f (natBE 4 v.toNat ++ List.replicate 74 0xff))
    · rw [List.append_assoc]; exact hz1 _
    · rw [List.append_assoc]; exact hz1 _
    · rw [List.append_assoc]; exact hz1 _
    · exact hge _ (by rw [List.length_append, List.length_append, List.length_replicate]; omega)
    · exact hge _ (by rw [List.length_append, List.length_append, hr]; omega)
    · exact hge _ (by rw [List.length_append, List.length_append, List.length_replicate]; omega)
    · exact hord _ _ List.length_replicate hr hzero
    · exact hord _ _ hr List.length_replicate hff
    · have l1 : ∀ x : UInt8, (List.replicate 74 x ++ f (natBE 4 v.toNat ++ List.replicate 74 x)).length = 78 := fun x => by
        rw [List.length_append, List.length_replicate, hf]
      obtain ⟨a1, a2⟩ := hval _ (l1 0xff)
      obtain ⟨b1, b2⟩ := hval _ (l1 0)
      rw [List.append_assoc, List.append_assoc, a1, b1]
      have aux : ∀ V W A B : Nat, 1 * W ≤ V → A < W → V + A < 2 * (V + B) := by omega
      exact aux _ _ _ _ (Nat.mul_le_mul_right _ hvpos) a2
    · rw [← zb, ← tb, htl]

-- both happen: the version of `xprv` passes the test, the version 0x024285bb of the counterexample does not
example (H : Hashes) : ∃ s, (lastKey .XPRV).toString H = .ok s ∧ Prefix.XPRV.asStr = .ok (s.take 4) := by
  obtain ⟨s, _, h, _, _, _, h'⟩ := C41_write_base58_total H (lastKey .XPRV)
  exact ⟨s, h, (h' (by simp [lastKey])).2⟩

example (H : Hashes) : ∃ p, Prefix.tryFromVersion H 0x024285bb#32 = .ok p ∧
    ¬ ∃ s, (lastKey p).toString H = .ok s ∧ p.asStr = .ok (s.take 4) := by
  obtain ⟨p, hp, _, _, h⟩ := C47_version_does_not_determine_prefix H
  refine ⟨p, hp, fun hs => ?_⟩
  obtain ⟨s, h1, h2⟩ := (C47_exactly_which_versions H _ p hp).2 hs (lastKey p) rfl
  obtain ⟨s', k', h3, h4, h5, _⟩ := h (lastKey p) rfl (by simp [lastKey])
  rw [h1] at h3
  cases h3
  rw [h2] at h4
  cases h4
  exact h5 rfl

end Kms.Props
