import Verif.Model.ExtendedKey
import Verif.Proofs.Wipe
import Verif.Spec.ExtendedKey
import Verif.Proofs.Base58
import Mathlib.Tactic.IntervalCases
/-
Prefixes and the text form of extended keys.
-/
namespace Kms
open Kms.Bip32 Kms.Base58

theorem utf8Char_ascii {c : Char} (h : c.toNat < 128) : String.utf8EncodeChar c = [UInt8.ofNat c.toNat] := by
  unfold String.utf8EncodeChar
  have : c.val.toNat ≤ 127 := by
    have : c.val.toNat = c.toNat := rfl
    omega
  simp only [this, if_true]
  rfl

theorem utf8Char_nonascii {c : Char} (h : 128 ≤ c.toNat) :
    ∃ x ∈ String.utf8EncodeChar c, Prefix.isLetter x = false := by
  have hx : ∀ n < 64, Prefix.isLetter (UInt8.ofNat (n + 128)) = false := by decide +kernel
  have h1 : ¬ c.val.toNat ≤ 127 := by
    have : c.val.toNat = c.toNat := rfl
    omega
  refine ⟨UInt8.ofNat (c.val.toNat % 64 + 128), ?_, hx _ (Nat.mod_lt _ (by decide))⟩
  unfold String.utf8EncodeChar
  simp only [h1, if_false]
  split
  · simp
  · split <;> simp

theorem utf8_ascii {s : Str} (h : ∀ c ∈ s, c.toNat < 128) : utf8 s = s.map (fun c => UInt8.ofNat c.toNat) := by
  unfold utf8
  induction s with
  | nil => rfl
  | cons c s ih =>
    rw [List.flatMap_cons, utf8Char_ascii (h c (by simp)), ih (fun c hc => h c (List.mem_cons_of_mem _ hc))]
    rfl

theorem letter_iff (c : Char) :
    Spec.Letter c ↔ (97 ≤ c.toNat ∧ c.toNat ≤ 122) ∨ (65 ≤ c.toNat ∧ c.toNat ≤ 90) := Iff.rfl

theorem letter_ascii {c : Char} (h : Spec.Letter c) : c.toNat < 128 := by
  rw [letter_iff] at h
  omega

theorem isLetter_iff {c : Char} (h : c.toNat < 128) :
    Prefix.isLetter (UInt8.ofNat c.toNat) = true ↔ Spec.Letter c := by
  rw [letter_iff]
  unfold Prefix.isLetter
  have : (UInt8.ofNat c.toNat).toNat = c.toNat := by
    simp; omega
  rw [this]
  simp

/-- `validate_str` accepts exactly four ASCII letters. -/
theorem validateStr_spec (s : Str) :
    ((s.length = 4 ∧ ∀ c ∈ s, Spec.Letter c) → Prefix.validateStr s = .ok s) ∧
    (¬ (s.length = 4 ∧ ∀ c ∈ s, Spec.Letter c) → Prefix.validateStr s = .err .decode) := by
  unfold Prefix.validateStr
  by_cases ha : ∀ c ∈ s, c.toNat < 128
  · rw [utf8_ascii ha, List.length_map]
    have hall : (s.map (fun c => UInt8.ofNat c.toNat)).all Prefix.isLetter = true ↔ ∀ c ∈ s, Spec.Letter c := by
      rw [List.all_map, List.all_eq_true]
      exact forall₂_congr (fun c hc => isLetter_iff (ha c hc))
    constructor
    · rintro ⟨h1, h2⟩
      rw [if_neg (by omega), if_pos (hall.mpr h2)]
    · intro h
      by_cases h1 : s.length = 4
      · rw [if_neg (by omega), if_neg (fun h2 => h ⟨h1, hall.mp h2⟩)]
      · rw [if_pos h1]
  · push_neg at ha
    obtain ⟨c, hc, hge⟩ := ha
    constructor
    · rintro ⟨_, h2⟩
      have := letter_ascii (h2 c hc)
      omega
    · intro _
      split
      · rfl
      · rw [if_neg]
        intro hall
        obtain ⟨x, hx, hf⟩ := utf8Char_nonascii hge
        rw [List.all_eq_true] at hall
        have := hall x (by unfold utf8; rw [List.mem_flatMap]; exact ⟨c, hc, hx⟩)
        rw [hf] at this
        cases this

/-- The prefix with a given text. -/
def mkPfx (s : Str) (h : s.length = 4) (v : BitVec 32) : Prefix :=
  ⟨⟨s.map (fun c => UInt8.ofNat c.toNat), by simp [h]⟩, v⟩

theorem fromParts_ok {s : Str} (h : s.length = 4) (hl : ∀ c ∈ s, Spec.Letter c) (v : BitVec 32) :
    Prefix.fromPartsUnchecked s v = .ok (mkPfx s h v) := by
  unfold Prefix.fromPartsUnchecked
  rw [(validateStr_spec s).1 ⟨h, hl⟩]
  have hu := utf8_ascii (fun c hc => letter_ascii (hl c hc))
  have hlen : (utf8 s).length = 4 := by rw [hu, List.length_map, h]
  simp only [hlen, dite_true]
  congr 1
  unfold mkPfx
  congr 1
  exact Subtype.ext hu

theorem fromParts_panic {s : Str} (h : ¬ (s.length = 4 ∧ ∀ c ∈ s, Spec.Letter c)) (v : BitVec 32) :
    Prefix.fromPartsUnchecked s v = .panic := by
  unfold Prefix.fromPartsUnchecked
  rw [(validateStr_spec s).2 h]

theorem getBytePrefix_ascii (n : Nat) (s : Str) (h : ∀ c ∈ s, c.toNat < 128) (hl : n ≤ s.length) :
    getBytePrefix n s = some (s.take n) := by
  induction n generalizing s with
  | zero => simp [getBytePrefix]
  | succ n ih =>
    cases s with
    | nil => simp at hl
    | cons c s =>
      simp only [getBytePrefix]
      rw [utf8Char_ascii (h c (by simp))]
      simp only [List.length_cons, List.length_nil, Nat.zero_add, Nat.add_sub_cancel]
      rw [if_pos (by omega), ih s (fun c hc => h c (List.mem_cons_of_mem _ hc)) (by simpa using hl)]
      simp

theorem asciiStr_map {s : Str} (h : ∀ c ∈ s, c.toNat < 128) :
    asciiStr (s.map (fun c => UInt8.ofNat c.toNat)) = some s := by
  have hn : ∀ c ∈ s, (UInt8.ofNat c.toNat).toNat = c.toNat := by
    intro c hc
    have := h c hc
    simp; omega
  unfold asciiStr
  rw [if_pos]
  · rw [List.map_map]
    congr 1
    conv_rhs => rw [← List.map_id s]
    apply List.map_congr_left
    intro c hc
    simp only [Function.comp, hn c hc, id]
    exact Char.ofNat_toNat c
  · rw [List.all_map, List.all_eq_true]
    intro c hc
    simp only [Function.comp, hn c hc]
    simpa using h c hc

theorem base58_ascii {s : Str} {b : Bytes} (h : Spec.Base58 s b) : ∀ c ∈ s, c.toNat < 128 := by
  intro c hc
  have := alphabet_ascii c (by rw [alphabet_eq]; exact h.chars c hc)
  omega

/-- A text is never shorter than its bytes. -/
theorem text_length_ge (b : Bytes) : b.length ≤ (text b).length := by
  have hlen : (text b).length = (Nat.digits 58 (foldBytes 0 b)).length + zerosB b := by simp [text, Nat.add_comm]
  have hs : b = List.replicate (zerosB b) 0 ++ b.dropWhile (· = 0) := by
    conv_lhs => rw [← List.takeWhile_append_dropWhile (p := fun x : UInt8 => decide (x = 0)) (l := b)]
    congr 1
    rw [List.eq_replicate_iff]
    exact ⟨rfl, fun b hb => by simpa using List.mem_takeWhile_imp hb⟩
  have hl : b.length = zerosB b + (b.dropWhile (· = 0)).length := by
    have := congrArg List.length hs
    rw [List.length_append, List.length_replicate] at this
    exact this
  have hv : foldBytes 0 b = beNat (b.dropWhile (· = 0)) := by
    rw [foldBytes_beNat]
    conv_lhs => rw [hs]
    exact beNat_replicate_zero _ _
  rw [hlen, hl, hv]
  cases hd : b.dropWhile (· = 0) with
  | nil => simp
  | cons x rest =>
    have hx : x ≠ 0 := by
      have := List.head_dropWhile_not (fun x : UInt8 => decide (x = 0)) (l := b) (by rw [hd]; simp)
      simp only [hd, List.head_cons] at this
      simpa using this
    have hx1 : 1 ≤ x.toNat := by
      rcases Nat.eq_zero_or_pos x.toNat with h | h
      · exact absurd (UInt8.toNat_inj.mp h) hx
      · exact h
    have : rest.length < (Nat.digits 58 (beNat (x :: rest))).length := by
      rw [Nat.lt_digits_length_iff (by decide : 1 < 58), beNat_cons]
      calc 58 ^ rest.length ≤ 256 ^ rest.length := Nat.pow_le_pow_left (by decide) _
        _ ≤ x.toNat * 256 ^ rest.length := Nat.le_mul_of_pos_left _ hx1
        _ ≤ _ := Nat.le_add_right _ _
    rw [List.length_cons]
    omega

theorem u32ToBE_fromBE (b : ByteArr 4) : u32ToBE (u32FromBE b) = b := by
  apply Subtype.ext
  unfold u32ToBE u32FromBE
  have hlt : beNat b.1 < 2 ^ 32 := by
    have := beNat_lt b.1
    rw [b.2] at this
    exact this
  simp only [BitVec.toNat_ofNat, Nat.mod_eq_of_lt hlt]
  have := natBE_beNat b.1
  rw [b.2] at this
  exact this

theorem u32FromBE_toBE (v : BitVec 32) : u32FromBE (u32ToBE v) = v := by
  unfold u32ToBE u32FromBE
  apply BitVec.eq_of_toNat_eq
  simp only [BitVec.toNat_ofNat, beNat_natBE]
  have : (256 : Nat) ^ 4 = 2 ^ 32 := by decide
  rw [this]
  have := v.isLt
  omega

theorem u32ToBE_inj {v w : BitVec 32} (h : u32ToBE v = u32ToBE w) : v = w := by
  rw [← u32FromBE_toBE v, h, u32FromBE_toBE]

namespace Bip32.ExtendedKey

theorem serialize_length (k : ExtendedKey) : k.serialize.length = 78 := by
  unfold serialize
  simp only [List.length_append, k.pfx.toBytes.2, k.attrs.parentFingerprint.2, k.attrs.childNumber.toBytes.2,
    k.attrs.chainCode.2, k.keyBytes.2, List.length_cons, List.length_nil]

theorem append_inj4 {a a' b b' : Bytes} (h : a ++ b = a' ++ b') (hl : a.length = a'.length) : a = a' ∧ b = b' :=
  List.append_inj h hl

/-- The payload determines everything but the letters of the prefix. -/
theorem serialize_inj {k k' : ExtendedKey} (h : k.serialize = k'.serialize) :
    k.pfx.version = k'.pfx.version ∧ k.attrs = k'.attrs ∧ k.keyBytes = k'.keyBytes := by
  unfold serialize at h
  simp only [List.append_assoc] at h
  obtain ⟨h1, h⟩ := List.append_inj h (by rw [k.pfx.toBytes.2, k'.pfx.toBytes.2])
  obtain ⟨h2, h⟩ := List.append_inj h rfl
  obtain ⟨h3, h⟩ := List.append_inj h (by rw [k.attrs.parentFingerprint.2, k'.attrs.parentFingerprint.2])
  obtain ⟨h4, h⟩ := List.append_inj h (by rw [k.attrs.childNumber.toBytes.2, k'.attrs.childNumber.toBytes.2])
  obtain ⟨h5, h6⟩ := List.append_inj h (by rw [k.attrs.chainCode.2, k'.attrs.chainCode.2])
  refine ⟨u32ToBE_inj (Subtype.ext h1), ?_, Subtype.ext h6⟩
  rcases k with ⟨p, ⟨d, f, ⟨c⟩, cc⟩, kb⟩
  rcases k' with ⟨p', ⟨d', f', ⟨c'⟩, cc'⟩, kb'⟩
  simp only at h1 h2 h3 h4 h5
  have e1 : d = d' := by simpa using h2
  have e2 : f = f' := Subtype.ext h3
  have e3 : c = c' := u32ToBE_inj (Subtype.ext h4)
  have e4 : cc = cc' := Subtype.ext h5
  subst e1 e2 e3 e4
  rfl

theorem ext_of_serialize {k k' : ExtendedKey} (h : k.serialize = k'.serialize) (hc : k.pfx.chars = k'.pfx.chars) :
    k = k' := by
  obtain ⟨h1, h2, h3⟩ := serialize_inj h
  rcases k with ⟨⟨c, v⟩, a, kb⟩
  rcases k' with ⟨⟨c', v'⟩, a', kb'⟩
  simp only at h1 h2 h3 hc
  subst h1 h2 h3 hc
  rfl

/-- Writing succeeds with the Base58Check text of the payload, and wipes its array. -/
theorem writeBase58_ok (H : Hashes) (k : ExtendedKey) :
    ∃ s, k.writeBase58 H = (List.replicate 78 0, .ok s) ∧ Spec.Base58Check (sha256 H) s k.serialize ∧ s.length ≤ 112 := by
  have hl : (k.serialize ++ checksum H k.serialize).length = 82 := by
    rw [List.length_append, serialize_length, checksum_length]
  have hle := text_length_le _ hl
  refine ⟨text (k.serialize ++ checksum H k.serialize), ?_, text_spec _, hle⟩
  unfold writeBase58 encodeCheck MAX_BASE58_SIZE
  simp only [(encodeInto_spec 112 _).1 hle]
  rw [wipe_all, serialize_length]

theorem toString_iff (H : Hashes) (k : ExtendedKey) (s : Str) :
    k.toString H = .ok s ↔ Spec.Base58Check (sha256 H) s k.serialize := by
  obtain ⟨t, ht, hs, _⟩ := writeBase58_ok H k
  unfold toString
  rw [ht]
  constructor
  · intro h
    cases h
    exact hs
  · intro h
    rw [base58_text_unique h hs]

/-- The key with a given payload of 78 bytes and given letters. -/
theorem exists_key (b : Bytes) (hb : b.length = 78) (c : ByteArr 4) :
    ∃ k : ExtendedKey, k.serialize = b ∧ k.pfx.chars = c := by
  have l1 : (b.take 4).length = 4 := by rw [List.length_take]; omega
  have l2 : ((b.drop 5).take 4).length = 4 := by rw [List.length_take, List.length_drop]; omega
  have l3 : ((b.drop 9).take 4).length = 4 := by rw [List.length_take, List.length_drop]; omega
  have l4 : ((b.drop 13).take 32).length = 32 := by rw [List.length_take, List.length_drop]; omega
  have l5 : ((b.drop 45).take 33).length = 33 := by rw [List.length_take, List.length_drop]; omega
  refine ⟨⟨⟨c, u32FromBE ⟨b.take 4, l1⟩⟩, ⟨b[4]'(by omega), ⟨_, l2⟩, ChildNumber.fromBytes ⟨_, l3⟩, ⟨_, l4⟩⟩, ⟨_, l5⟩⟩, ?_, rfl⟩
  unfold serialize Prefix.toBytes ChildNumber.toBytes ChildNumber.fromBytes
  simp only [u32ToBE_fromBE]
  have e : ∀ i n, (b.drop i).take n ++ b.drop (i + n) = b.drop i := by
    intro i n
    rw [← List.drop_drop, List.take_append_drop]
  have e5 : (b.drop 45).take 33 = b.drop 45 := by
    rw [List.take_of_length_le]; rw [List.length_drop]; omega
  have e1 : [b[4]'(by omega)] ++ b.drop 5 = b.drop 4 := by
    rw [List.drop_eq_getElem_cons (i := 4) (by omega)]; rfl
  simp only [List.append_assoc]
  rw [e5, e 13 32, e 9 4, e 5 4, e1, List.take_append_drop]

theorem fromStrBuf_ok (H : Hashes) (s : Str) (k : ExtendedKey) (hs : Spec.Base58Check (sha256 H) s k.serialize)
    (hl : ∀ c ∈ s.take 4, Spec.Letter c) (hc : k.pfx.chars.1 = (s.take 4).map (fun c => UInt8.ofNat c.toNat)) :
    fromStrBuf H s = (List.replicate 82 0, .ok k) := by
  have hlen := serialize_length k
  have hck := checksum_length H k.serialize
  have hdec : decodeCheck H 82 s = (k.serialize ++ checksum H k.serialize, .ok 78) := by
    rcases decodeCheck_cases H 82 s with ⟨b, hb, hb2, hd⟩ | ⟨hn, _⟩
    · have hk : b ++ checksum H b = k.serialize ++ checksum H k.serialize := base58_bytes_unique hb hs
      have hbl : b.length = 78 := by
        have := congrArg List.length hk
        rw [List.length_append, List.length_append, checksum_length, checksum_length] at this
        omega
      obtain ⟨h1, _⟩ := List.append_inj hk (by omega)
      subst h1
      rw [hd, hbl]
      simp
    · exact absurd ⟨_, hs, by omega⟩ hn
  have hs4 : 4 ≤ s.length := by
    have := text_length_ge (k.serialize ++ checksum H k.serialize)
    rw [show text (k.serialize ++ checksum H k.serialize) = s from (text_of hs).symm, List.length_append] at this
    omega
  have ht : (s.take 4).length = 4 := by rw [List.length_take]; omega
  have hpfx : parsePrefix s (k.serialize ++ checksum H k.serialize) = .ok k.pfx := by
    unfold parsePrefix
    rw [getBytePrefix_ascii 4 s (base58_ascii hs) hs4]
    simp only [Res.ofOption_some, Res.ok_bind]
    rw [(validateStr_spec _).1 ⟨ht, hl⟩]
    simp only [Res.ok_bind]
    have hv : (k.serialize ++ checksum H k.serialize).take 4 = k.pfx.toBytes.1 := by
      rw [List.take_append_of_le_length (by omega)]
      unfold serialize
      simp only [List.append_assoc]
      rw [List.take_left' k.pfx.toBytes.2]
    rw [hv, tryIntoArr_ok k.pfx.toBytes.2]
    simp only [Res.ok_bind]
    rw [fromParts_ok ht hl]
    congr 1
    unfold mkPfx Prefix.toBytes
    rw [show (⟨(u32ToBE k.pfx.version).1, (u32ToBE k.pfx.version).2⟩ : ByteArr 4) = u32ToBE k.pfx.version from rfl,
      u32FromBE_toBE]
    rcases hk : k.pfx with ⟨c, v⟩
    rw [hk] at hc
    congr 1
    exact Subtype.ext hc.symm
  unfold fromStrBuf BYTE_SIZE
  simp only [hdec, ne_eq, not_true, if_false, hpfx]
  have hbuf : k.serialize ++ checksum H k.serialize = k.pfx.toBytes.1 ++ ([k.attrs.depth] ++ (k.attrs.parentFingerprint.1 ++
      (k.attrs.childNumber.toBytes.1 ++ (k.attrs.chainCode.1 ++ (k.keyBytes.1 ++ checksum H k.serialize))))) := by
    generalize checksum H k.serialize = ck
    unfold serialize
    simp only [List.append_assoc]
  have p1 := k.pfx.toBytes.2
  have p2 := k.attrs.parentFingerprint.2
  have p3 := k.attrs.childNumber.toBytes.2
  have p4 := k.attrs.chainCode.2
  have p5 := k.keyBytes.2
  rw [hbuf]
  generalize k.pfx.toBytes.1 = b1 at p1
  generalize checksum H k.serialize = ck at *
  have d4 : ∀ t : Bytes, (b1 ++ t).drop 4 = t := fun t => by rw [List.drop_left' p1]
  have g1 : (b1 ++ ([k.attrs.depth] ++ (k.attrs.parentFingerprint.1 ++ (k.attrs.childNumber.toBytes.1 ++
      (k.attrs.chainCode.1 ++ (k.keyBytes.1 ++ ck))))))[4]? = some k.attrs.depth := by
    rw [List.getElem?_append_right (by omega), p1]
    simp
  have d5 : ∀ t : Bytes, (b1 ++ ([k.attrs.depth] ++ t)).drop 5 = t := fun t => by
    rw [← List.append_assoc, List.drop_left' (by simp [p1])]
  have d9 : ∀ t : Bytes, (b1 ++ ([k.attrs.depth] ++ (k.attrs.parentFingerprint.1 ++ t))).drop 9 = t := fun t => by
    rw [← List.append_assoc, ← List.append_assoc, List.drop_left' (by simp [p1, p2])]
  have d13 : ∀ t : Bytes, (b1 ++ ([k.attrs.depth] ++ (k.attrs.parentFingerprint.1 ++
      (k.attrs.childNumber.toBytes.1 ++ t)))).drop 13 = t := fun t => by
    rw [← List.append_assoc, ← List.append_assoc, ← List.append_assoc, List.drop_left' (by simp [p1, p2, p3])]
  have d45 : ∀ t : Bytes, (b1 ++ ([k.attrs.depth] ++ (k.attrs.parentFingerprint.1 ++
      (k.attrs.childNumber.toBytes.1 ++ (k.attrs.chainCode.1 ++ t))))).drop 45 = t := fun t => by
    rw [← List.append_assoc, ← List.append_assoc, ← List.append_assoc, ← List.append_assoc,
      List.drop_left' (by simp [p1, p2, p3, p4])]
  rw [g1, d5, d9, d13, d45, List.take_left' p2, List.take_left' p3, List.take_left' p4, List.take_left' p5,
    tryIntoArr_ok p2, tryIntoArr_ok p3, tryIntoArr_ok p4, tryIntoArr_ok p5]
  simp only
  have hcn : ChildNumber.fromBytes k.attrs.childNumber.toBytes = k.attrs.childNumber := by
    unfold ChildNumber.fromBytes ChildNumber.toBytes
    rw [u32FromBE_toBE]
  rw [show (⟨k.attrs.childNumber.toBytes.1, p3⟩ : ByteArr 4) = k.attrs.childNumber.toBytes from rfl, hcn, wipe_all]
  congr 2
  simp only [List.length_append, List.length_singleton, p1, p2, p3, p4, p5, hck]

/-- All outcomes of `from_str`. -/
theorem fromStrBuf_cases (H : Hashes) (s : Str) :
    (∃ k, Spec.Base58Check (sha256 H) s k.serialize ∧ (∀ c ∈ s.take 4, Spec.Letter c) ∧ 4 ≤ s.length ∧
      k.pfx.chars.1 = (s.take 4).map (fun c => UInt8.ofNat c.toNat) ∧ fromStrBuf H s = (List.replicate 82 0, .ok k)) ∨
    (∃ b, b.length = 78 ∧ Spec.Base58Check (sha256 H) s b ∧ (¬ ∀ c ∈ s.take 4, Spec.Letter c) ∧
      fromStrBuf H s = (b ++ checksum H b, .err .decode)) ∨
    (∃ b buf, b.length < 78 ∧ Spec.Base58Check (sha256 H) s b ∧ fromStrBuf H s = (buf, .err .decode)) ∨
    ((¬ ∃ b, b.length ≤ 78 ∧ Spec.Base58Check (sha256 H) s b) ∧ ∃ buf, fromStrBuf H s = (buf, .err .base58)) := by
  rcases decodeCheck_cases H 82 s with ⟨b, hb, hl, hd⟩ | ⟨hn, buf, e, hd⟩
  · by_cases h78 : b.length = 78
    · have hck := checksum_length H b
      have hs4 : 4 ≤ s.length := by
        have := text_length_ge (b ++ checksum H b)
        rw [show text (b ++ checksum H b) = s from (text_of hb).symm, List.length_append] at this
        omega
      have ht : (s.take 4).length = 4 := by rw [List.length_take]; omega
      by_cases hlet : ∀ c ∈ s.take 4, Spec.Letter c
      · obtain ⟨k, hk, hc⟩ := exists_key b h78 ⟨(s.take 4).map (fun c => UInt8.ofNat c.toNat), by simp; omega⟩
        refine Or.inl ⟨k, by rw [hk]; exact hb, hlet, hs4, by rw [hc], ?_⟩
        exact fromStrBuf_ok H s k (by rw [hk]; exact hb) hlet (by rw [hc])
      · refine Or.inr (Or.inl ⟨b, h78, hb, hlet, ?_⟩)
        unfold fromStrBuf BYTE_SIZE
        simp only [hd, h78, ne_eq, not_true, if_false]
        unfold parsePrefix
        rw [getBytePrefix_ascii 4 s (base58_ascii hb) hs4]
        simp only [Res.ofOption_some, Res.ok_bind]
        rw [(validateStr_spec _).2 (fun h => hlet h.2)]
        simp
    · refine Or.inr (Or.inr (Or.inl ⟨b, b ++ checksum H b ++ List.replicate (82 - (b.length + 4)) 0, by omega, hb, ?_⟩))
      · unfold fromStrBuf BYTE_SIZE
        simp only [hd]
        rw [if_pos h78]
  · refine Or.inr (Or.inr (Or.inr ⟨?_, buf, ?_⟩))
    · rintro ⟨b, hbl, hb⟩
      exact hn ⟨b, hb, by omega⟩
    · unfold fromStrBuf BYTE_SIZE
      simp only [hd]

theorem fromStr_iff (H : Hashes) (s : Str) (k : ExtendedKey) :
    fromStr H s = .ok k ↔ Spec.Base58Check (sha256 H) s k.serialize ∧ (∀ c ∈ s.take 4, Spec.Letter c) ∧
      k.pfx.chars.1 = (s.take 4).map (fun c => UInt8.ofNat c.toNat) := by
  constructor
  · intro h
    unfold fromStr at h
    rcases fromStrBuf_cases H s with ⟨k', h1, h2, _, h3, h4⟩ | ⟨b, _, _, _, h4⟩ | ⟨b, buf, _, _, h4⟩ | ⟨_, buf, h4⟩ <;>
      rw [h4] at h <;> cases h
    exact ⟨h1, h2, h3⟩
  · rintro ⟨h1, h2, h3⟩
    unfold fromStr
    rw [fromStrBuf_ok H s k h1 h2 h3]

end Bip32.ExtendedKey
end Kms
