import Verif.Props.KeyText
import Verif.Props.Wallet
import Verif.Props.Ecdsa
import Verif.Props.Path
import Verif.Props.PhraseMore
/-
C72–C75.
-/
namespace Kms.Props
open Kms.Bip32 Kms.Bip39 Kms.Spec Kms.Spec.Secp Kms.Spec.Bip32 Kms.Spec.Ecdsa
open Kms.Secp (SecretKey)

/-- Equal text, equal payload. -/
theorem text_payload (H : Hashes) {k k' : ExtendedKey} (h : k.toString H = k'.toString H) :
    k.pfx.version = k'.pfx.version ∧ k.attrs = k'.attrs ∧ k.keyBytes = k'.keyBytes := by
  obtain ⟨s, hs, _⟩ := C42_bip32_layout H k
  have h1 := (ExtendedKey.toString_iff H k s).1 hs
  have h2 := (ExtendedKey.toString_iff H k' s).1 (h ▸ hs)
  have := Base58.base58_bytes_unique h1 h2
  exact ExtendedKey.serialize_inj (List.append_inj this (by rw [ExtendedKey.serialize_length, ExtendedKey.serialize_length])).1

/-- C72. Text tells extended keys apart: equal texts have equal versions, attributes and key bytes; for private and for
public keys (points of the curve) they are the same key; a private and a public key never have the same text, whatever the
prefixes. -/
theorem C72_text_separates (H : Hashes) :
    (∀ k k' : ExtendedKey, k.toString H = k'.toString H →
      k.pfx.version = k'.pfx.version ∧ k.attrs = k'.attrs ∧ k.keyBytes = k'.keyBytes) ∧
    (∀ (k k' : XPrv) p p', k.toString H p = k'.toString H p' → k = k' ∧ p.version = p'.version) ∧
    (∀ (k k' : XPub) p p', (∃ Q, HasCoords Q k.publicKey.x k.publicKey.y) →
      (∃ Q, HasCoords Q k'.publicKey.x k'.publicKey.y) → k.toString H p = k'.toString H p' →
      k = k' ∧ p.version = p'.version) ∧
    (∀ (k : XPrv) (K : XPub) p p', k.toString H p ≠ K.toString H p') := by
  refine ⟨fun k k' => text_payload H, ?_, ?_, ?_⟩
  · intro k k' p p' h
    obtain ⟨h1, h2, h3⟩ := text_payload H h
    have hb : k.privateKey = k'.privateKey := by
      apply SecretKey.serialize_inj
      have := congrArg Subtype.val h3
      simp only [XPrv.toExtendedKey, List.cons.injEq, true_and] at this
      exact Subtype.ext this
    obtain ⟨s, a⟩ := k
    obtain ⟨s', a'⟩ := k'
    exact ⟨by rw [XPrv.mk.injEq]; exact ⟨hb, h2⟩, h1⟩
  · intro k k' p p' hk hk' h
    obtain ⟨h1, h2, h3⟩ := text_payload H h
    obtain ⟨Q, hQ⟩ := hk
    obtain ⟨Q', hQ'⟩ := hk'
    have e1 := (C50_compressed_keys.1 _ Q hQ).2
    have e2 := (C50_compressed_keys.1 _ Q' hQ').2
    have h3' : PublicKey.toBytes k.publicKey = PublicKey.toBytes k'.publicKey := h3
    rw [h3', e2] at e1
    obtain ⟨s, a⟩ := k
    obtain ⟨s', a'⟩ := k'
    refine ⟨?_, h1⟩
    rw [XPub.mk.injEq]
    exact ⟨by simpa using e1.symm, h2⟩
  · intro k K p p' h
    obtain ⟨_, _, h3⟩ := text_payload H h
    have h4 := congrArg (fun b : ByteArr 33 => b.1.head?) h3
    simp only [XPrv.toExtendedKey, List.head?_cons] at h4
    have h5 : K.toBytes.1.head? = some 2 ∨ K.toBytes.1.head? = some 3 := by
      unfold XPub.toBytes PublicKey.toBytes Secp.PublicKey.serializeCompressed
      simp only [List.head?_cons]
      split <;> simp
    have h6 : (K.toExtendedKey p').keyBytes.1.head? = K.toBytes.1.head? := rfl
    rw [h6] at h4
    rcases h5 with h5 | h5 <;> rw [h5] at h4 <;> simp at h4

/-- C72 is not vacuous: the example key and its public key satisfy the hypotheses, and have texts. -/
example (H : Hashes) : (∃ Q, HasCoords Q exKey.publicKey.publicKey.x exKey.publicKey.publicKey.y) ∧
    (∃ s, exKey.toString H .XPRV = .ok s) ∧ ∃ s, exKey.publicKey.toString H .XPUB = .ok s := by
  obtain ⟨s, hs, _⟩ := C42_bip32_layout H (exKey.toExtendedKey .XPRV)
  obtain ⟨t, ht, _⟩ := C42_bip32_layout H (exKey.publicKey.toExtendedKey .XPUB)
  exact ⟨⟨_, publicKey_coords exKey⟩, ⟨s, hs⟩, t, ht⟩

/-- C73. `ecdsa_sign` sees the 32 bytes as a number modulo n: messages congruent modulo n get the same outcome, and
there are different 32-byte messages which every key signs alike. -/
theorem C73_message_modulo_n :
    (∀ H debug fuel sk msg msg', msg.length = 32 → msg'.length = 32 → bytesVal msg % n = bytesVal msg' % n →
      ecdsaSign H debug fuel sk msg = ecdsaSign H debug fuel sk msg') ∧
    (∃ msg msg' : Bytes, msg.length = 32 ∧ msg'.length = 32 ∧ msg ≠ msg' ∧
      ∀ H debug fuel sk, ecdsaSign H debug fuel sk msg = ecdsaSign H debug fuel sk msg') := by
  have one : ∀ H debug fuel sk msg msg', msg.length = 32 → msg'.length = 32 → bytesVal msg % n = bytesVal msg' % n →
      ecdsaSign H debug fuel sk msg = ecdsaSign H debug fuel sk msg' := by
    intro H debug fuel sk msg msg' hl hl' h
    rw [ecdsa_eq H debug fuel sk msg hl, ecdsa_eq H debug fuel sk msg' hl', h]
  refine ⟨one, ser256 1, ser256 (n + 1), ?_, ?_, ?_, ?_⟩
  · simp [ser256]
  · simp [ser256]
  · decide +kernel
  · intro H debug fuel sk
    apply one
    · simp [ser256]
    · simp [ser256]
    · decide +kernel

-- 0 and n
example : (natBE 32 0).length = 32 ∧ (natBE 32 n).length = 32 ∧ bytesVal (natBE 32 0) % n = bytesVal (natBE 32 n) % n ∧
    natBE 32 0 ≠ natBE 32 n := by
  decide +kernel

/-- C74. A watch-only holder can check signatures: if a private key signs with the key it derives along a path without
hardened numbers, then whoever imports the exported public text, derives the same path and converts to libsecp256k1's type has
the point that verifies the signature, and that the recovery id recovers. -/
theorem C74_watch_only_verifies (H : Hashes) (k c : XPrv) (path : DerivationPath) (p : Prefix)
    (hp : p ∈ [Prefix.TPUB, .XPUB, .YPUB, .ZPUB]) (hpath : ∀ i ∈ path.iter, i.n.toNat < 2 ^ 31)
    (hc : k.deriveFromPath H path = .ok c) (debug : Bool) (fuel : Nat) (msg : Bytes) (sig : ByteArr 64) (v : UInt8)
    (hs : ecdsaSign H debug fuel c.toSecretKey msg = some (.ok (sig, v))) :
    ∃ text watch C Q r s, k.publicKey.toString H p = .ok text ∧ XPub.fromStr H text = .ok watch ∧
      watch.deriveFromPath H path = .ok C ∧ HasCoords Q C.toPublicKey.x C.toPublicKey.y ∧ C = c.publicKey ∧
      sig.1 = ser256 r ++ ser256 s ∧
      (r ≠ 0 → Verifies Q (bytesVal msg) r s ∧ Recovers Q (bytesVal msg) r s v.toNat) := by
  obtain ⟨text, h1, h2⟩ := C39_xpub_round_trip H k.publicKey p hp (.inr ⟨_, publicKey_coords k⟩)
  have h3 := (C31_public_matches_private H k).2 path hpath
  rw [hc, Res.map_ok] at h3
  obtain ⟨r, s, e1, _, _, _, _, e2, _⟩ := C51_signature_verifies_partial H debug fuel _ msg sig v hs
  exact ⟨text, k.publicKey, c.publicKey, c.privateKey.k • G, r, s, h1, h2, h3.symm, publicKey_coords c, rfl, e1, e2⟩

/-- Hash functions for the example below: SHA-256 is always 1, the left half of SHA-512 always 2. -/
def watchHash : Hashes := ⟨(constSha256 1).sha256, (constHash 2).sha512, fun _ => zeroArr 20⟩

/-- The key that `exKey` derives along m/5. -/
def watchChild : XPrv := ⟨⟨3, by decide, by decide⟩, ⟨1, zeroArr 4, ⟨5⟩, ⟨natBE 32 7, by simp⟩⟩⟩

/-- C74 is not vacuous: the key 1 derives the key 3 along m/5, which signs 32 zero bytes with r not 0. -/
example : exKey.deriveFromPath watchHash ⟨[⟨5⟩]⟩ = .ok watchChild ∧
    ∃ sig v, ecdsaSign watchHash true 1 watchChild.toSecretKey (List.replicate 32 0) = some (.ok (sig, v)) ∧
      sig.1.take 32 = ser256 Spec.Secp.gx := by
  refine ⟨by decide +kernel, ?_⟩
  have h : (match ecdsaSign watchHash true 1 watchChild.toSecretKey (List.replicate 32 0) with
      | some (.ok (sig, _)) => decide (sig.1.take 32 = ser256 Spec.Secp.gx)
      | _ => false) = true := by decide +kernel
  split at h
  · rename_i sig v heq
    exact ⟨sig, v, heq, of_decide_eq_true h⟩
  · cases h

/-- C75. Functions that take untrusted input return on all of it, without a panic. -/
theorem C75_no_panics (H : Hashes) :
    (∀ e l, e.length < 2 ^ 61 → Mnemonic.fromEntropy H e l ≠ .panic) ∧
    (∀ rng t l, Mnemonic.new H rng t l ≠ .panic) ∧
    (∀ s l, Mnemonic.fromPhrase H s l ≠ .panic ∧ Mnemonic.validate H s l ≠ .panic) ∧
    (∀ s i, MnemonicType.forPhrase s ≠ .panic ∧ MnemonicType.forWordCount i ≠ .panic ∧ MnemonicType.forKeySize i ≠ .panic) ∧
    (∀ i h, ChildNumber.new i h ≠ .panic) ∧
    (∀ s, ChildNumber.fromStr s ≠ .panic ∧ DerivationPath.fromStr s ≠ .panic) ∧
    (∀ v b, Prefix.tryFromVersion H v ≠ .panic ∧ Prefix.tryFromSlice H b ≠ .panic) ∧
    (∀ s, ExtendedKey.fromStr H s ≠ .panic ∧ XPrv.fromStr H s ≠ .panic ∧ XPub.fromStr H s ≠ .panic) ∧
    (∀ e : ExtendedKey, XPrv.tryFrom e ≠ .panic ∧ XPub.tryFrom e ≠ .panic ∧ e.toString H ≠ .panic) ∧
    (∀ (k : XPrv) (K : XPub) p, k.toString H p ≠ .panic ∧ K.toString H p ≠ .panic) ∧
    (∀ seed, XPrv.new H seed ≠ .panic) ∧
    (∀ fuel sk msg, ecdsaSign H false fuel sk msg ≠ some .panic) := by
  have hstr : ∀ e : ExtendedKey, e.toString H ≠ .panic := by
    intro e h
    obtain ⟨s, hs, _⟩ := C42_bip32_layout H e
    rw [hs] at h
    cases h
  have hchild : ∀ s, ChildNumber.fromStr s ≠ .panic := by
    intro s h
    unfold ChildNumber.fromStr at h
    simp only at h
    split at h
    · cases h
    · unfold ChildNumber.new at h
      split at h
      · cases h
      · split at h <;> cases h
  have hall : ∀ ss, DerivationPath.parseAll ss ≠ .panic := by
    intro ss
    induction ss with
    | nil => simp [DerivationPath.parseAll]
    | cons s ss ih =>
      intro h
      unfold DerivationPath.parseAll at h
      rcases h1 : ChildNumber.fromStr s with c | e | _
      · rw [h1] at h
        rcases h2 : DerivationPath.parseAll ss with cs | e | _
        · rw [h2] at h; simp at h
        · rw [h2] at h; simp at h
        · exact ih h2
      · rw [h1] at h; simp at h
      · exact hchild s h1
  have hcount : ∀ i, MnemonicType.forWordCount i ≠ .panic := by
    intro i h
    unfold MnemonicType.forWordCount at h
    split at h <;> cases h
  refine ⟨?_, ?_, fun s l => ⟨(C04_error_classification H s l).2.1, (C04_error_classification H s l).1⟩, ?_, ?_, ?_, ?_, ?_, ?_, ?_, ?_, ?_⟩
  · intro e l he h
    obtain ⟨h1, h2, _⟩ := C05_from_entropy_acceptance H e l he
    by_cases hl : e.length ∈ entropyLengths
    · obtain ⟨m, hm⟩ := h1.2 hl
      rw [hm] at h; cases h
    · rw [h2 hl] at h; cases h
  · intro rng t l h
    obtain ⟨m, hm, _⟩ := (C07_new_valid_and_injective H t l rng).1
    rw [hm] at h; cases h
  · intro s i
    refine ⟨hcount _, hcount _, ?_⟩
    intro h
    unfold MnemonicType.forKeySize at h
    split at h <;> cases h
  · intro i hd h
    unfold ChildNumber.new at h
    split at h
    · cases h
    · split at h <;> cases h
  · intro s
    refine ⟨hchild s, ?_⟩
    intro h
    unfold DerivationPath.fromStr at h
    split at h
    · split at h
      · cases h
      · rename_i first rest _ _
        rcases h2 : DerivationPath.parseAll rest with cs | e | _
        · rw [h2] at h; simp at h
        · rw [h2] at h; simp at h
        · exact hall rest h2
    · cases h
  · intro v b
    obtain ⟨_, _, _, h1, h2, _⟩ := C46_prefixes H
    have h1 : ∀ v, Prefix.tryFromVersion H v ≠ .panic := by
      intro v
      obtain ⟨s, _, hy, hn⟩ := h1 v
      by_cases hl : ∀ c ∈ s.take 4, Letter c
      · obtain ⟨p, hp, _⟩ := hy hl
        rw [hp]
        simp
      · rw [hn hl]
        simp
    refine ⟨h1 v, ?_⟩
    by_cases hb : b.length = 4
    · rw [(h2 b).1 (u32FromBE ⟨b, hb⟩) (by rw [← be4_eq, u32ToBE_fromBE])]
      exact h1 _
    · rw [(h2 b).2 hb]
      simp
  · intro s
    exact ⟨(C43_from_str_exact H s).2.2.1, (C59_xprv_acceptance H s).2.1, (C60_xpub_acceptance H s).2.1⟩
  · intro e
    refine ⟨?_, ?_, hstr e⟩
    · rcases xprv_tryFrom_cases e with ⟨k, h, _⟩ | ⟨h, _⟩ <;> rw [h] <;> simp
    · rcases xpub_tryFrom_cases e with ⟨k, h, _⟩ | ⟨h, _⟩ <;> rw [h] <;> simp
  · intro k K p
    exact ⟨hstr _, hstr _⟩
  · intro seed h
    rcases (C36_master_key H seed).2.2.2 with ⟨k, h1⟩ | h1 | h1 <;> rw [h1] at h <;> cases h
  · intro fuel sk msg h
    by_cases hl : msg.length = 32
    · exact (C61_rfc6979 H sk msg hl).2.2 fuel h
    · rw [(C51_input_length H false fuel sk msg).2 hl] at h
      cases h

-- malformed inputs of each kind are answered with an error
example : Mnemonic.fromPhrase Real.hashes "\u0000 　".toList .english = .err .invalidWord ∧
    Mnemonic.fromEntropy Real.hashes [] .english = .err (.invalidKeysize 0) ∧
    ChildNumber.fromStr "4294967296'".toList = .err .childNumber ∧
    DerivationPath.fromStr "m//".toList = .err .childNumber := by
  decide +kernel

example : XPrv.fromStr Real.hashes "".toList = .err .base58 ∧ XPub.fromStr Real.hashes "xpubé".toList = .err .base58 := by
  decide +kernel

end Kms.Props
