import Verif.Proofs.Prefix
import Verif.Model.RealHashes
/-
Properties C40 to C43, C46, C47, C49: the text form of extended keys, and prefixes.
-/
namespace Kms.Props
open Kms.Bip32 Kms.Spec

/-- SHA-256 as a function on byte strings. -/
def sha256 (H : Hashes) : Bytes → Bytes := fun b => (H.sha256 b).1

/-- C40. A text that parses is the text the parsed key prints; two texts for the same key are equal. -/
theorem C40_text_canonical (H : Hashes) :
    (∀ s k, ExtendedKey.fromStr H s = .ok k → k.toString H = .ok s) ∧
    (∀ s s' k, ExtendedKey.fromStr H s = .ok k → ExtendedKey.fromStr H s' = .ok k → s = s') := by
  have h1 : ∀ s k, ExtendedKey.fromStr H s = .ok k → k.toString H = .ok s := fun s k h =>
    (ExtendedKey.toString_iff H k s).mpr ((ExtendedKey.fromStr_iff H s k).mp h).1
  refine ⟨h1, fun s s' k h h' => ?_⟩
  have := (h1 s k h).symm.trans (h1 s' k h')
  cases this
  rfl

-- a text that parses
example : (ExtendedKey.fromStr Real.hashes
    "xpub661MyMwAqRbcFtXgS5sYJABqqG9YLmC4Q1Rdap9gSE8NqtwybGhePY2gZ29ESFjqJoCu1Rupje8YtGqsefD265TMg7usUDFdp6W1EGMcet8".toList).isOk
      = true := by decide +kernel

/-- C41. Writing never fails and never panics; the text has between 82 and 112 characters of the Base58 alphabet; with
a predefined prefix it has 111 characters and starts with the text of the prefix. -/
theorem C41_write_base58_total (H : Hashes) (k : ExtendedKey) :
    ∃ s, (k.writeBase58 H).2 = .ok s ∧ k.toString H = .ok s ∧ 82 ≤ s.length ∧ s.length ≤ 112 ∧
      (∀ c ∈ s, c ∈ digits58) ∧
      (k.pfx ∈ [Prefix.TPRV, .TPUB, .XPRV, .XPUB, .YPRV, .YPUB, .ZPRV, .ZPUB] →
        s.length = 111 ∧ k.pfx.asStr = .ok (s.take 4)) := by
  obtain ⟨s, h1, h2, h3⟩ := ExtendedKey.writeBase58_ok H k
  refine ⟨s, by rw [h1], (ExtendedKey.toString_iff H k s).mpr h2, ?_, h3, h2.chars, ?_⟩
  · have := text_length_ge (k.serialize ++ Base58.checksum H k.serialize)
    rw [show Base58.text (k.serialize ++ Base58.checksum H k.serialize) = s from (Base58.text_of h2).symm,
      List.length_append, ExtendedKey.serialize_length, Base58.checksum_length] at this
    exact this
  · intro hp
    have hser : k.serialize ++ (sha256 H (sha256 H k.serialize)).take 4 =
        k.pfx.toBytes.1 ++ ([k.attrs.depth] ++ k.attrs.parentFingerprint.1 ++ k.attrs.childNumber.toBytes.1 ++
          k.attrs.chainCode.1 ++ k.keyBytes.1 ++ (sha256 H (sha256 H k.serialize)).take 4) := by
      generalize (sha256 H (sha256 H k.serialize)).take 4 = ck
      unfold ExtendedKey.serialize
      simp only [List.append_assoc]
    have hl : ([k.attrs.depth] ++ k.attrs.parentFingerprint.1 ++ k.attrs.childNumber.toBytes.1 ++
          k.attrs.chainCode.1 ++ k.keyBytes.1 ++ (sha256 H (sha256 H k.serialize)).take 4).length = 78 := by
      have h4 : ((sha256 H (sha256 H k.serialize)).take 4).length = 4 := Base58.checksum_length H _
      simp only [List.length_append, h4, k.attrs.parentFingerprint.2, k.attrs.childNumber.toBytes.2,
        k.attrs.chainCode.2, k.keyBytes.2, List.length_cons, List.length_nil]
    have hc := const_text hp _ hl
    rw [← hser, show Base58.text (k.serialize ++ (sha256 H (sha256 H k.serialize)).take 4) = s from
      (Base58.text_of h2).symm] at hc
    refine ⟨hc.1, ?_⟩
    unfold Prefix.asStr
    rw [← hc.2.1, asciiStr_map (fun c h => letter_ascii (hc.2.2 c h))]

-- 111 characters, the first four the prefix
example : ((ExtendedKey.toString Real.hashes ⟨.YPUB, ⟨3, zeroArr 4, ⟨9⟩, zeroArr 32⟩, zeroArr 33⟩).map
    (fun s => (s.length, s.take 4))) = .ok (111, "ypub".toList) := by
  decide +kernel

theorem be4_eq (v : BitVec 32) : (u32ToBE v).1 = be4 v.toNat := by
  unfold u32ToBE be4
  simp [natBE]

/-- C42. The text is the Base58Check form (checksum: first four bytes of the double SHA-256) of the BIP32 layout. -/
theorem C42_bip32_layout (H : Hashes) (k : ExtendedKey) :
    ∃ s, k.toString H = .ok s ∧
      Base58Check (sha256 H) s (layout k.pfx.version.toNat k.attrs.depth k.attrs.parentFingerprint.1
        k.attrs.childNumber.n.toNat k.attrs.chainCode.1 k.keyBytes.1) := by
  obtain ⟨s, h1, h2, h3⟩ := ExtendedKey.writeBase58_ok H k
  refine ⟨s, (ExtendedKey.toString_iff H k s).mpr h2, ?_⟩
  unfold layout
  rw [← be4_eq, ← be4_eq]
  exact h2

-- the layout of a key
example : layout Prefix.XPRV.version.toNat 1 [1, 2, 3, 4] (2 ^ 31 + 5) (List.replicate 32 6) (List.replicate 33 7) =
    [0x04, 0x88, 0xad, 0xe4, 1, 1, 2, 3, 4, 0x80, 0, 0, 5] ++ List.replicate 32 6 ++ List.replicate 33 7 := by
  decide +kernel

/-- C43. Parsing succeeds exactly on the Base58Check texts of 78-byte payloads that start with four letters; then the
key has those letters and that payload.  Every other string is an error, never a panic: `Decode` if it is the
Base58Check text of at most 78 bytes, `Base58` if not. -/
theorem C43_from_str_exact (H : Hashes) (s : Str) :
    ((∃ k, ExtendedKey.fromStr H s = .ok k) ↔
      (∃ b, b.length = 78 ∧ Base58Check (sha256 H) s b) ∧ ∀ c ∈ s.take 4, Letter c) ∧
    (∀ k, ExtendedKey.fromStr H s = .ok k →
      Base58Check (sha256 H) s (layout k.pfx.version.toNat k.attrs.depth k.attrs.parentFingerprint.1
        k.attrs.childNumber.n.toNat k.attrs.chainCode.1 k.keyBytes.1) ∧ k.pfx.asStr = .ok (s.take 4)) ∧
    (ExtendedKey.fromStr H s ≠ .panic) ∧
    (∀ e, ExtendedKey.fromStr H s = .err e →
      ((∃ b, b.length ≤ 78 ∧ Base58Check (sha256 H) s b) ∧ e = .decode) ∨
      ((¬ ∃ b, b.length ≤ 78 ∧ Base58Check (sha256 H) s b) ∧ e = .base58)) := by
  have hlay : ∀ k : ExtendedKey, k.serialize = layout k.pfx.version.toNat k.attrs.depth k.attrs.parentFingerprint.1
        k.attrs.childNumber.n.toNat k.attrs.chainCode.1 k.keyBytes.1 := by
    intro k
    unfold layout
    rw [← be4_eq, ← be4_eq]
    rfl
  refine ⟨⟨?_, ?_⟩, ?_, ?_, ?_⟩
  · rintro ⟨k, hk⟩
    obtain ⟨h1, h2, h3⟩ := (ExtendedKey.fromStr_iff H s k).mp hk
    exact ⟨⟨k.serialize, ExtendedKey.serialize_length k, h1⟩, h2⟩
  · rintro ⟨⟨b, hb, hs⟩, hl⟩
    unfold ExtendedKey.fromStr
    rcases ExtendedKey.fromStrBuf_cases H s with ⟨k', h1, h2, _, h3, h4⟩ | ⟨b', _, _, h, h4⟩ | ⟨b', buf, hlt, h1, h4⟩ | ⟨hn, buf, h4⟩
    · exact ⟨k', by rw [h4]⟩
    · exact absurd hl h
    · have := Base58.base58_bytes_unique hs h1
      have := congrArg List.length this
      have c1 : ((sha256 H (sha256 H b)).take 4).length = 4 := Base58.checksum_length H b
      have c2 : ((sha256 H (sha256 H b')).take 4).length = 4 := Base58.checksum_length H b'
      rw [List.length_append, List.length_append, c1] at this
      have c3 : ((Base58.sha256 H (Base58.sha256 H b')).take 4).length = 4 := c2
      rw [c3] at this
      omega
    · exact absurd ⟨b, by omega, hs⟩ hn
  · intro k hk
    obtain ⟨h1, h2, h3⟩ := (ExtendedKey.fromStr_iff H s k).mp hk
    refine ⟨by rw [← hlay]; exact h1, ?_⟩
    unfold Prefix.asStr
    rw [h3, asciiStr_map (fun c h => letter_ascii (h2 c h))]
  · unfold ExtendedKey.fromStr
    rcases ExtendedKey.fromStrBuf_cases H s with ⟨k', h1, h2, _, h3, h4⟩ | ⟨b', _, _, h, h4⟩ | ⟨b', buf, hlt, h1, h4⟩ | ⟨hn, buf, h4⟩ <;>
      rw [h4] <;> simp
  · intro e he
    unfold ExtendedKey.fromStr at he
    rcases ExtendedKey.fromStrBuf_cases H s with ⟨k', h1, h2, _, h3, h4⟩ | ⟨b', hb, hs, h, h4⟩ | ⟨b', buf, hlt, h1, h4⟩ | ⟨hn, buf, h4⟩ <;>
      rw [h4] at he <;> cases he
    · exact Or.inl ⟨⟨b', by omega, hs⟩, rfl⟩
    · exact Or.inl ⟨⟨b', by omega, h1⟩, rfl⟩
    · exact Or.inr ⟨hn, rfl⟩

-- a bad digit, and a correct check sum over too few bytes (the extended keys of BIP32 are in Vectors.lean)
example : ExtendedKey.fromStr Real.hashes "xprv0".toList = .err .base58 ∧
    ExtendedKey.fromStr Real.hashes "3QJmnh".toList = .err .decode := by
  decide +kernel

/-- The eight predefined prefixes, as BIP32 and SLIP-132 list them. -/
def prefixTable : List (String × Nat) :=
  [("tprv", 0x04358394), ("tpub", 0x043587cf), ("xprv", 0x0488ade4), ("xpub", 0x0488b21e),
   ("yprv", 0x049d7878), ("ypub", 0x049d7cb2), ("zprv", 0x04b2430c), ("zpub", 0x04b24746)]

/-- C46. The constants have the letters and versions of the table and are what `try_from` gives for their version, each
is public or private but not both, according to its letters; `try_from` of a version takes the first four characters of the
text of the key with that version and zeros elsewhere, if they are letters, and fails otherwise; the prefix it gives is public or
private according to them and survives `to_bytes` then `from_bytes`; `try_from` on a slice reads the four bytes, big-endian, and
needs four; `from_parts_unchecked` panics unless given four letters. -/
theorem C46_prefixes (H : Hashes) :
    ([Prefix.TPRV, .TPUB, .XPRV, .XPUB, .YPRV, .YPUB, .ZPRV, .ZPUB].map (fun p => (p.asStr, p.version.toNat)) =
      prefixTable.map (fun x => (.ok x.1.toList, x.2))) ∧
    (prefixTable.map (·.2)).Nodup ∧
    (∀ p ∈ [Prefix.TPRV, .TPUB, .XPRV, .XPUB, .YPRV, .YPUB, .ZPRV, .ZPUB],
      Prefix.tryFromVersion H p.version = .ok p ∧
      (p.isPrivate = true ↔ ∃ c, p.asStr = .ok [c, 'p', 'r', 'v']) ∧
      (p.isPublic = true ↔ ∃ c, p.asStr = .ok [c, 'p', 'u', 'b']) ∧ (p.isPublic = !p.isPrivate)) ∧
    (∀ v, ∃ s, Base58Check (sha256 H) s (be4 v.toNat ++ List.replicate 74 0) ∧
      ((∀ c ∈ s.take 4, Letter c) → ∃ p, Prefix.tryFromVersion H v = .ok p ∧ p.version = v ∧ p.asStr = .ok (s.take 4) ∧
        (s.take 4).length = 4 ∧ Prefix.fromBytes H p.toBytes = .ok p ∧
        (p.isPrivate = true ↔ ∃ c, s.take 4 = [c, 'p', 'r', 'v']) ∧
        (p.isPublic = true ↔ ∃ c, s.take 4 = [c, 'p', 'u', 'b'])) ∧
      ((¬ ∀ c ∈ s.take 4, Letter c) → Prefix.tryFromVersion H v = .err .decode)) ∧
    (∀ b : Bytes, (∀ v : BitVec 32, b = be4 v.toNat → Prefix.tryFromSlice H b = Prefix.tryFromVersion H v) ∧
      (b.length ≠ 4 → Prefix.tryFromSlice H b = .err .decode)) ∧
    (∀ (s : Str) v, (s.length = 4 ∧ (∀ c ∈ s, Letter c) →
        ∃ p, Prefix.fromPartsUnchecked s v = .ok p ∧ p.asStr = .ok s ∧ p.version = v) ∧
      (¬ (s.length = 4 ∧ ∀ c ∈ s, Letter c) → Prefix.fromPartsUnchecked s v = .panic)) := by
  have hstr : ∀ (s : Str) (h : s.length = 4) (v : BitVec 32), (∀ c ∈ s, Letter c) → (mkPfx s h v).asStr = .ok s := by
    intro s h v hl
    unfold Prefix.asStr mkPfx
    simp only [asciiStr_map (fun c h => letter_ascii (hl c h))]
  refine ⟨by decide +kernel, by decide +kernel, ?_, ?_, ?_, ?_⟩
  · intro p hp
    refine ⟨?_, ?_⟩
    · have hl : (List.replicate 74 (0 : UInt8) ++ Base58.checksum H ((u32ToBE p.version).1 ++ List.replicate 74 0)).length = 78 := by
        rw [List.length_append, Base58.checksum_length, List.length_replicate]
      have hc := const_text hp _ hl
      have hz : Base58.text (p.toBytes.1 ++ (List.replicate 74 (0 : UInt8) ++
          Base58.checksum H ((u32ToBE p.version).1 ++ List.replicate 74 0))) = zeroText H p.version := by
        unfold zeroText
        rw [List.append_assoc]
        rfl
      rw [hz] at hc
      rcases fromVersion_cases H p.version with ⟨h, h2, h3⟩ | ⟨h, _⟩
      · unfold Prefix.tryFromVersion
        rw [h3]
        congr 1
        rcases p with ⟨c, v⟩
        unfold mkPfx
        congr 1
        exact Subtype.ext hc.2.1
      · exact absurd hc.2.2 h
    · have hlist : p = .TPRV ∨ p = .TPUB ∨ p = .XPRV ∨ p = .XPUB ∨ p = .YPRV ∨ p = .YPUB ∨ p = .ZPRV ∨ p = .ZPUB := by
        simpa using hp
      have hs : ∀ (p : Prefix) (a b c d : Char), p.asStr = .ok [a, b, c, d] →
          (p.isPrivate = decide ([b, c, d] = ['p', 'r', 'v'])) → (p.isPublic = decide ([b, c, d] = ['p', 'u', 'b'])) →
          (p.isPublic = !p.isPrivate) →
          (p.isPrivate = true ↔ ∃ c, p.asStr = .ok [c, 'p', 'r', 'v']) ∧
          (p.isPublic = true ↔ ∃ c, p.asStr = .ok [c, 'p', 'u', 'b']) ∧ (p.isPublic = !p.isPrivate) := by
        intro p a b c d h1 h2 h3 h4
        rw [h1]
        refine ⟨?_, ?_, h4⟩
        · rw [h2]; simp
        · rw [h3]; simp
      rcases hlist with h | h | h | h | h | h | h | h <;> subst h
      · exact hs _ 't' 'p' 'r' 'v' (by decide +kernel) (by decide +kernel) (by decide +kernel) (by decide +kernel)
      · exact hs _ 't' 'p' 'u' 'b' (by decide +kernel) (by decide +kernel) (by decide +kernel) (by decide +kernel)
      · exact hs _ 'x' 'p' 'r' 'v' (by decide +kernel) (by decide +kernel) (by decide +kernel) (by decide +kernel)
      · exact hs _ 'x' 'p' 'u' 'b' (by decide +kernel) (by decide +kernel) (by decide +kernel) (by decide +kernel)
      · exact hs _ 'y' 'p' 'r' 'v' (by decide +kernel) (by decide +kernel) (by decide +kernel) (by decide +kernel)
      · exact hs _ 'y' 'p' 'u' 'b' (by decide +kernel) (by decide +kernel) (by decide +kernel) (by decide +kernel)
      · exact hs _ 'z' 'p' 'r' 'v' (by decide +kernel) (by decide +kernel) (by decide +kernel) (by decide +kernel)
      · exact hs _ 'z' 'p' 'u' 'b' (by decide +kernel) (by decide +kernel) (by decide +kernel) (by decide +kernel)
  · intro v
    unfold Prefix.tryFromVersion
    refine ⟨zeroText H v, ?_, ?_⟩
    · unfold Base58Check
      rw [← be4_eq]
      exact Base58.text_spec _
    have hfour : ∀ t : Str, t.length = 4 → (∀ c ∈ t, Letter c) → ∀ x y z : Char, Letter x → Letter y → Letter z →
        (((t.map (fun c => UInt8.ofNat c.toNat)).drop 1 == [x, y, z].map (fun c => UInt8.ofNat c.toNat)) = true ↔
          ∃ c, t = [c, x, y, z]) := by
      intro t ht hl x y z hx hy hz
      match t, ht with
      | [a, b, c, d], _ =>
        have hinj : ∀ u w : Char, Letter u → Letter w → UInt8.ofNat u.toNat = UInt8.ofNat w.toNat → u = w := by
          intro u w hu hw h
          have h := congrArg UInt8.toNat h
          have h1 := letter_ascii hu
          have h2 := letter_ascii hw
          rw [UInt8.toNat_ofNat', UInt8.toNat_ofNat', Nat.mod_eq_of_lt (by omega), Nat.mod_eq_of_lt (by omega)] at h
          exact Char.toNat_inj.1 h
        simp only [List.map_cons, List.map_nil, List.drop_succ_cons, List.drop_zero, beq_iff_eq, List.cons.injEq, and_true]
        constructor
        · rintro ⟨h1, h2, h3⟩
          exact ⟨a, rfl, hinj _ _ (hl b (by simp)) hx h1, hinj _ _ (hl c (by simp)) hy h2, hinj _ _ (hl d (by simp)) hz h3⟩
        · rintro ⟨_, rfl, rfl, rfl, rfl⟩
          exact ⟨rfl, rfl, rfl⟩
    rcases fromVersion_cases H v with ⟨h, h2, h3⟩ | ⟨h, h3⟩
    · refine ⟨fun _ => ⟨_, h3, rfl, hstr _ h v h2, h, ?_, ?_, ?_⟩, fun hn => absurd h2 hn⟩
      · unfold Prefix.fromBytes Prefix.toBytes
        rw [u32FromBE_toBE]
        exact h3
      · exact hfour _ h h2 'p' 'r' 'v' (by unfold Letter; decide) (by unfold Letter; decide) (by unfold Letter; decide)
      · exact hfour _ h h2 'p' 'u' 'b' (by unfold Letter; decide) (by unfold Letter; decide) (by unfold Letter; decide)
    · exact ⟨fun hl => absurd hl h, fun _ => h3⟩
  · intro b
    unfold Prefix.tryFromSlice Prefix.tryFromVersion Prefix.fromBytes
    refine ⟨?_, fun h => ?_⟩
    · rintro v rfl
      rw [tryIntoArr_ok (by rfl : (be4 v.toNat).length = 4)]
      simp only [Res.ok_bind]
      have : (⟨be4 v.toNat, rfl⟩ : ByteArr 4) = u32ToBE v := Subtype.ext (be4_eq v).symm
      rw [this, u32FromBE_toBE]
    · simp [tryIntoArr, h]
  · intro s v
    exact ⟨fun ⟨h, hl⟩ => ⟨_, fromParts_ok h hl v, hstr s h v hl, rfl⟩, fun h => fromParts_panic h v⟩

/-- A version is accepted as `xprv` and one is refused, with the real hash functions. -/
example : Prefix.tryFromVersion Real.hashes 0x0488ade4#32 = .ok .XPRV ∧
    Prefix.tryFromVersion Real.hashes 0#32 = .err .decode := by decide +kernel

/-- C47, false as stated: `try_from` accepts version 0x024285bb with the letters `Uprv`, and every key with that prefix
and depth at least 3 prints a text that starts with `Uprw`, so it parses back with another prefix, which is not a
private one. -/
theorem C47_version_does_not_determine_prefix (H : Hashes) :
    ∃ p, Prefix.tryFromVersion H 0x024285bb#32 = .ok p ∧ p.asStr = .ok ['U', 'p', 'r', 'v'] ∧ p.isPrivate = true ∧
      ∀ k : ExtendedKey, k.pfx = p → 3 ≤ k.attrs.depth.toNat → ∃ s k', k.toString H = .ok s ∧
        ExtendedKey.fromStr H s = .ok k' ∧ k'.pfx ≠ k.pfx ∧ k'.pfx.isPrivate = false := by
  have hv : (0x024285bb#32 : BitVec 32).toNat = 0x024285bb := rfl
  -- the letters of the all-zero key
  have hz : (zeroText H 0x024285bb#32).take 4 = ['U', 'p', 'r', 'v'] := by
    have hl : (List.replicate 74 (0 : UInt8) ++
        Base58.checksum H ((u32ToBE 0x024285bb#32).1 ++ List.replicate 74 0)).length = 78 := by
      rw [List.length_append, Base58.checksum_length, List.length_replicate]
    have hck := beNat_lt (Base58.checksum H ((u32ToBE 0x024285bb#32).1 ++ List.replicate 74 0))
    rw [Base58.checksum_length] at hck
    have h := first_of (v := 0x024285bb) (c := 0x024285bb * 256 ^ 78 / 58 ^ 107) _ hl (by decide) (by decide) (by decide +kernel)
      (by decide +kernel) (by
        rw [Base58.beNat_replicate_zero]
        apply le_antisymm
        · calc _ ≤ (0x024285bb * 256 ^ 78 + 256 ^ 4) / 58 ^ 107 :=
                Nat.div_le_div_right (Nat.add_le_add_left (le_of_lt hck) _)
            _ = _ := by decide +kernel
        · exact Nat.div_le_div_right (Nat.le_add_right _ _))
    unfold zeroText
    rw [List.append_assoc]
    exact h.2.trans (by decide +kernel)
  refine ⟨mkPfx ['U', 'p', 'r', 'v'] rfl 0x024285bb#32, ?_, by decide +kernel, by decide +kernel, ?_⟩
  · rcases fromVersion_cases H 0x024285bb#32 with ⟨h, _, h3⟩ | ⟨h, _⟩
    · unfold Prefix.tryFromVersion
      rw [h3]
      have hmk : ∀ (s t : Str) (hs : s.length = 4) (ht : t.length = 4) (v : BitVec 32), s = t → mkPfx s hs v = mkPfx t ht v := by
        intro s t hs ht v e; subst e; rfl
      exact congrArg Res.ok (hmk _ _ _ _ _ hz)
    · rw [hz] at h
      exact absurd (by simp only [letter_iff]; decide) h
  · intro k hk hd
    obtain ⟨s, hs, hb, _⟩ := ExtendedKey.writeBase58_ok H k
    have hts := (ExtendedKey.toString_iff H k s).mpr hb
    obtain ⟨ck, hck, hbb⟩ : ∃ ck : Bytes, ck.length = 4 ∧ Base58 s (k.serialize ++ ck) :=
      ⟨_, Base58.checksum_length H k.serialize, hb⟩
    have hser : k.serialize ++ ck =
        natBE 4 0x024285bb ++ (k.attrs.depth :: (k.attrs.parentFingerprint.1 ++ k.attrs.childNumber.toBytes.1 ++
          k.attrs.chainCode.1 ++ k.keyBytes.1 ++ ck)) := by
      unfold ExtendedKey.serialize Prefix.toBytes
      rw [hk]
      simp only [List.append_assoc]
      rfl
    have hl' : (k.attrs.parentFingerprint.1 ++ k.attrs.childNumber.toBytes.1 ++
          k.attrs.chainCode.1 ++ k.keyBytes.1 ++ ck).length = 77 := by
      simp only [List.length_append, hck, k.attrs.parentFingerprint.2, k.attrs.childNumber.toBytes.2,
        k.attrs.chainCode.2, k.keyBytes.2]
    have h4 : s.take 4 = ['U', 'p', 'r', 'w'] := by
      have h := first_of (v := 0x024285bb) (c := (0x024285bb + 1) * 256 ^ 78 / 58 ^ 107) (k.attrs.depth :: (k.attrs.parentFingerprint.1 ++ k.attrs.childNumber.toBytes.1 ++
          k.attrs.chainCode.1 ++ k.keyBytes.1 ++ ck)) (by rw [List.length_cons, hl']) (by decide) (by decide)
        (by decide +kernel) (by decide +kernel) (by
          have hlt := beNat_lt (k.attrs.depth :: (k.attrs.parentFingerprint.1 ++ k.attrs.childNumber.toBytes.1 ++
            k.attrs.chainCode.1 ++ k.keyBytes.1 ++ ck))
          rw [List.length_cons, hl'] at hlt
          apply le_antisymm
          · calc _ ≤ (0x024285bb * 256 ^ 78 + 256 ^ (77 + 1)) / 58 ^ 107 :=
                  Nat.div_le_div_right (Nat.add_le_add_left (le_of_lt hlt) _)
              _ = _ := by decide +kernel
          · calc _ = (0x024285bb * 256 ^ 78 + 3 * 256 ^ 77) / 58 ^ 107 := by decide +kernel
              _ ≤ _ := by
                apply Nat.div_le_div_right
                apply Nat.add_le_add_left
                rw [beNat_cons, hl']
                exact le_trans (Nat.mul_le_mul_right _ hd) (Nat.le_add_right _ _))
      rw [← hser, ← Base58.text_of hbb] at h
      exact h.2.trans (by decide +kernel)
    obtain ⟨k', hk'1, hk'2⟩ := ExtendedKey.exists_key k.serialize (ExtendedKey.serialize_length k)
      ⟨(s.take 4).map (fun c => UInt8.ofNat c.toNat), by rw [h4]; rfl⟩
    have hfs := (ExtendedKey.fromStr_iff H s k').mpr ⟨by rw [hk'1]; exact hb, by
      rw [h4]; simp only [letter_iff]; decide, by rw [hk'2]⟩
    refine ⟨s, k', hts, hfs, ?_, ?_⟩
    · intro he
      have := congrArg (fun p => p.chars.1) he
      simp only [hk'2, hk] at this
      rw [h4] at this
      revert this
      decide
    · unfold Prefix.isPrivate
      rw [hk'2]
      simp only [h4]
      decide

-- a key with that prefix and depth 3
example (H : Hashes) : ∃ p, Prefix.tryFromVersion H 0x024285bb#32 = .ok p ∧
    (⟨p, ⟨3, zeroArr 4, ⟨9⟩, zeroArr 32⟩, zeroArr 33⟩ : ExtendedKey).pfx = p := by
  obtain ⟨p, h, _⟩ := C47_version_does_not_determine_prefix H
  exact ⟨p, h, rfl⟩

/-- C47, the part that holds (full statement: the same for every version accepted by `try_from`; false, see above):
keys with a predefined prefix parse back to the same key; a key with any valid letters parses back to itself exactly
when its text starts with them. -/
theorem C47_version_determines_prefix_partial (H : Hashes) (k : ExtendedKey) :
    (k.pfx ∈ [Prefix.TPRV, .TPUB, .XPRV, .XPUB, .YPRV, .YPUB, .ZPRV, .ZPUB] →
      ∃ s, k.toString H = .ok s ∧ ExtendedKey.fromStr H s = .ok k) ∧
    (∀ l : Str, l.length = 4 → (∀ c ∈ l, Letter c) → k.pfx.asStr = .ok l → ∀ s, k.toString H = .ok s →
      (ExtendedKey.fromStr H s = .ok k ↔ s.take 4 = l)) := by
  constructor
  · intro hp
    obtain ⟨s, h1, h2, h3, h4, h5, h6⟩ := C41_write_base58_total H k
    refine ⟨s, h2, ?_⟩
    have hb := (ExtendedKey.toString_iff H k s).mp h2
    have hser : k.serialize ++ (sha256 H (sha256 H k.serialize)).take 4 =
        k.pfx.toBytes.1 ++ ([k.attrs.depth] ++ k.attrs.parentFingerprint.1 ++ k.attrs.childNumber.toBytes.1 ++
          k.attrs.chainCode.1 ++ k.keyBytes.1 ++ (sha256 H (sha256 H k.serialize)).take 4) := by
      generalize (sha256 H (sha256 H k.serialize)).take 4 = ck
      unfold ExtendedKey.serialize
      simp only [List.append_assoc]
    have hl : ([k.attrs.depth] ++ k.attrs.parentFingerprint.1 ++ k.attrs.childNumber.toBytes.1 ++
          k.attrs.chainCode.1 ++ k.keyBytes.1 ++ (sha256 H (sha256 H k.serialize)).take 4).length = 78 := by
      have h4 : ((sha256 H (sha256 H k.serialize)).take 4).length = 4 := Base58.checksum_length H _
      simp only [List.length_append, h4, k.attrs.parentFingerprint.2, k.attrs.childNumber.toBytes.2,
        k.attrs.chainCode.2, k.keyBytes.2, List.length_cons, List.length_nil]
    have hc := const_text hp _ hl
    rw [← hser, show Base58.text (k.serialize ++ (sha256 H (sha256 H k.serialize)).take 4) = s from
      (Base58.text_of hb).symm] at hc
    exact (ExtendedKey.fromStr_iff H s k).mpr ⟨hb, hc.2.2, hc.2.1.symm⟩
  · intro l h4 hl hstr s hs
    have hb := (ExtendedKey.toString_iff H k s).mp hs
    have hchars : k.pfx.chars.1 = l.map (fun c => UInt8.ofNat c.toNat) := by
      unfold Prefix.asStr asciiStr at hstr
      by_cases ha : k.pfx.chars.1.all (fun x => x.toNat < 128)
      · simp only [ha, if_true] at hstr
        cases hstr
        rw [List.map_map]
        conv_lhs => rw [← List.map_id k.pfx.chars.1]
        apply List.map_congr_left
        intro x hx
        rw [List.all_eq_true] at ha
        have hx' := of_decide_eq_true (ha x hx)
        have hval : (Char.ofNat x.toNat).toNat = x.toNat := by
          have : ∀ n < 128, (Char.ofNat n).toNat = n := by decide +kernel
          exact this _ hx'
        simp [Function.comp, hval]
      · simp only [ha] at hstr
        simp at hstr
    constructor
    · intro hf
      obtain ⟨_, h2, h3⟩ := (ExtendedKey.fromStr_iff H s k).mp hf
      have e : asciiStr (l.map (fun c => UInt8.ofNat c.toNat)) =
          asciiStr ((s.take 4).map (fun c => UInt8.ofNat c.toNat)) := by rw [← hchars, h3]
      rw [asciiStr_map (fun c h => letter_ascii (hl c h)), asciiStr_map (fun c h => letter_ascii (h2 c h))] at e
      exact (Option.some.inj e).symm
    · intro ht
      exact (ExtendedKey.fromStr_iff H s k).mpr ⟨hb, by rw [ht]; exact hl, by rw [ht]; exact hchars⟩

-- C40, C47: every key with a predefined prefix has a text, and that text parses
example (H : Hashes) (a : ExtendedKeyAttrs) (b : ByteArr 33) :
    ∃ s, ExtendedKey.fromStr H s = .ok ⟨.ZPUB, a, b⟩ := by
  obtain ⟨s, _, h⟩ := (C47_version_determines_prefix_partial H ⟨.ZPUB, a, b⟩).1
    (show Prefix.ZPUB ∈ _ by decide +kernel)
  exact ⟨s, h⟩

-- the letters of another network, with a version that gives them
example : ((ExtendedKey.toString Real.hashes ⟨Prefix.const 'L' 't' 'p' 'v' 0x019d9cfe#32, ⟨1, zeroArr 4, ⟨7⟩, zeroArr 32⟩,
      zeroArr 33⟩).map (·.take 4)) = .ok "Ltpv".toList := by
  decide +kernel

/-- C49. After `write_base58` its array is all zeros whatever the key; so it is after a successful `from_str`, and the
key bytes are zero after `drop`. -/
theorem C49_scratch_wiped (H : Hashes) :
    (∀ k : ExtendedKey, (k.writeBase58 H).1 = List.replicate 78 0) ∧
    (∀ s k, ExtendedKey.fromStr H s = .ok k → (ExtendedKey.fromStrBuf H s).1 = List.replicate 82 0) ∧
    (∀ k : ExtendedKey, k.drop = List.replicate 33 0) := by
  refine ⟨fun k => ?_, fun s k h => ?_, fun k => zeroizeArr_eq _⟩
  · obtain ⟨s, hs, _⟩ := ExtendedKey.writeBase58_ok H k
    rw [hs]
  · obtain ⟨h1, h2, h3⟩ := (ExtendedKey.fromStr_iff H s k).mp h
    rw [ExtendedKey.fromStrBuf_ok H s k h1 h2 h3]

/-- C49, what does not hold: when the text is the Base58Check form of a 78-byte payload but does not start with four
letters, `from_str` fails and leaves the whole payload, key included, in its array.  Such a text exists for every
payload that starts with a zero byte. -/
theorem C49_from_str_leaves_payload (H : Hashes) :
    (∀ s b, b.length = 78 → Base58Check (sha256 H) s b → (¬ ∀ c ∈ s.take 4, Letter c) →
      ExtendedKey.fromStr H s = .err .decode ∧ (ExtendedKey.fromStrBuf H s).1.take 78 = b) ∧
    (∀ b : Bytes, b.length = 78 → b.head? = some 0 → ∃ s, Base58Check (sha256 H) s b ∧ ¬ ∀ c ∈ s.take 4, Letter c) := by
  constructor
  · intro s b hb hs hl
    have hck : ∀ b, ((Base58.sha256 H (Base58.sha256 H b)).take 4).length = 4 := fun b => Base58.checksum_length H b
    have huniq : ∀ b', Base58Check (sha256 H) s b' → b' = b := by
      intro b' h'
      have hk := Base58.base58_bytes_unique h' hs
      have hlen := congrArg List.length hk
      have c1 : ((sha256 H (sha256 H b)).take 4).length = 4 := hck b
      have c2 : ((sha256 H (sha256 H b')).take 4).length = 4 := hck b'
      rw [List.length_append, List.length_append, c1, c2] at hlen
      exact (List.append_inj hk (by omega)).1
    unfold ExtendedKey.fromStr
    rcases ExtendedKey.fromStrBuf_cases H s with ⟨k', h1, h2, _, h3, h4⟩ | ⟨b', hb', hs', h, h4⟩ | ⟨b', buf, hlt, h1, h4⟩ | ⟨hn, buf, h4⟩
    · exact absurd h2 hl
    · rw [h4]
      refine ⟨rfl, ?_⟩
      rw [huniq b' hs', List.take_left' hb]
    · rw [huniq b' h1] at hlt
      omega
    · exact absurd ⟨b, by omega, hs⟩ hn
  · intro b hb h0
    refine ⟨Base58.text (b ++ Base58.checksum H b), Base58.text_spec _, ?_⟩
    intro hl
    cases b with
    | nil => simp at h0
    | cons x b =>
      simp only [List.head?_cons, Option.some.injEq] at h0
      subst h0
      obtain ⟨t, ht⟩ : ∃ t, Base58.text (0 :: b ++ Base58.checksum H (0 :: b)) = '1' :: t := by
        have hz := (Base58.text_spec (0 :: b ++ Base58.checksum H (0 :: b))).zeros
        cases hs : Base58.text (0 :: b ++ Base58.checksum H (0 :: b)) with
        | nil =>
          rw [hs, List.cons_append, List.takeWhile_cons] at hz
          simp at hz
        | cons c t =>
          rw [hs, List.cons_append, List.takeWhile_cons, List.takeWhile_cons] at hz
          by_cases hc : c = '1'
          · exact ⟨t, by rw [hc]⟩
          · simp [hc] at hz
      have := hl '1' (by rw [ht]; simp)
      rw [letter_iff] at this
      revert this
      decide

/-- BIP32 test vector 1, with the real hash functions: the text parses, and the array is wiped. -/
example : (ExtendedKey.fromStr Real.hashes
    "xprv9s21ZrQH143K3QTDL4LXw2F7HEK3wJUD2nW2nRk4stbPy6cq3jPPqjiChkVvvNKmPGJxWUtg6LnF5kejMRNNU3TGtRBeJgk33yuGBxrMPHi".toList).isOk
      = true := by decide +kernel

end Kms.Props
