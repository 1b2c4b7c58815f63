import Verif.Props.DerivationMore
import Verif.Spec.Tweak
/-
Properties C65 and C66: what derived keys reveal about their parents, and when keys coincide.
-/
namespace Kms.Props
open Kms.Bip32 Kms.Spec.Bip32
open Kms.Spec.Secp (Point G n HasCoords)
open Kms.Secp (SecretKey)

theorem data_public {k i : Nat} (h : i < 2 ^ 31) : data k i = serP (k • G) ++ ser32 i := if_neg (by omega)

theorem I_public (h : Hash) (chain : List UInt8) {k i : Nat} (hi : i < 2 ^ 31) : I h chain k i = Ipub h chain (k • G) i := by
  unfold I Ipub
  rw [data_public hi]

theorem xprv_tweak (H : Hashes) (l : List ChildNumber) (k c : XPrv) (hl : ∀ i ∈ l, i.n.toNat < 2 ^ 31)
    (h : k.deriveFromPath H ⟨l⟩ = .ok c) :
    c.privateKey.k = (k.privateKey.k +
      publicTweak (specHash H) k.attrs.chainCode.1 (k.privateKey.k • G) (l.map (·.n.toNat))) % n := by
  unfold XPrv.deriveFromPath at h
  simp only [DerivationPath.iter] at h
  induction l generalizing k with
  | nil =>
    cases h
    exact (Nat.mod_eq_of_lt (Secp.n_eq ▸ c.privateKey.lt)).symm
  | cons i l ih =>
    rw [List.foldl_cons, foldl_bind (fun (b : XPrv) a => b.deriveChild H a)] at h
    simp only [Res.ok_bind, Res.bind_eq_ok] at h
    obtain ⟨k1, h1, h2⟩ := h
    have h3 := ih k1 (fun j hj => hl j (by simp [hj])) h2
    have h4 := (C34_child_key H k k1 i).1 h1
    simp only [I_public _ _ (hl i (by simp))] at h4
    obtain ⟨_, _, _, _, hk, hc, _⟩ := h4
    have hpt : k1.privateKey.k • G = k.privateKey.k • G +
        IL (Ipub (specHash H) k.attrs.chainCode.1 (k.privateKey.k • G) i.n.toNat) • G := by
      rw [← add_nsmul, Secp.smul_G_inj, hk, Secp.n_eq, Nat.mod_mod, Nat.add_comm]
    rw [h3, List.map_cons, publicTweak]
    rw [← hpt, ← hc, hk, Nat.mod_add_mod]
    congr 1
    omega

theorem xpub_tweak (H : Hashes) (l : List ChildNumber) (k c : XPub) (Q : Point)
    (hQ : HasCoords Q k.publicKey.x k.publicKey.y) (h : k.deriveFromPath H ⟨l⟩ = .ok c) :
    HasCoords (Q + publicTweak (specHash H) k.attrs.chainCode.1 Q (l.map (·.n.toNat)) • G) c.publicKey.x c.publicKey.y := by
  unfold XPub.deriveFromPath at h
  simp only [DerivationPath.iter] at h
  induction l generalizing k Q with
  | nil =>
    cases h
    simpa [publicTweak] using hQ
  | cons i l ih =>
    rw [List.foldl_cons, foldl_bind (fun (b : XPub) a => b.deriveChild H a)] at h
    simp only [Res.ok_bind, Res.bind_eq_ok] at h
    obtain ⟨k1, h1, h2⟩ := h
    obtain ⟨_, _, _, _, hk, hc, _⟩ := (C57_public_child_key H k k1 Q hQ i).1 h1
    have h3 := ih k1 _ hk h2
    rw [List.map_cons, publicTweak]
    rw [hc] at h3
    rw [add_nsmul, ← add_assoc]
    exact h3

/-- C65. Along a path of non-hardened numbers the child key is the parent key plus a number computed from the
extended public key of the parent alone, and so are the public keys.  Hence the parent's private key is that number
less than the child's: whoever has the extended public key of a parent and one private key below it, reached without
hardened steps, has the parent's private key. -/
theorem C65_unwind (H : Hashes) (p : DerivationPath) :
    (∀ (K C : XPub) Q, HasCoords Q K.publicKey.x K.publicKey.y → K.deriveFromPath H p = .ok C →
      HasCoords (Q + publicTweak (specHash H) K.attrs.chainCode.1 Q (p.iter.map (·.n.toNat)) • G)
        C.publicKey.x C.publicKey.y) ∧
    (∀ (k c : XPrv) Q, (∀ i ∈ p.iter, i.n.toNat < 2 ^ 31) → k.deriveFromPath H p = .ok c →
      HasCoords Q k.publicKey.publicKey.x k.publicKey.publicKey.y →
      let t := publicTweak (specHash H) k.publicKey.attrs.chainCode.1 Q (p.iter.map (·.n.toNat))
      parse256 c.toBytes.1 = (parse256 k.toBytes.1 + t) % n ∧
      parse256 k.toBytes.1 = (parse256 c.toBytes.1 + (n - t % n)) % n) := by
  have hp : ∀ k : XPrv, parse256 k.toBytes.1 = k.privateKey.k := by
    intro k
    unfold parse256
    rw [bytesVal_eq]
    show beNat (natBE 32 k.privateKey.k) = _
    rw [beNat_natBE]
    exact Nat.mod_eq_of_lt (Nat.lt_of_lt_of_le k.privateKey.lt (by decide))
  refine ⟨fun K C Q hQ h => xpub_tweak H p.path K C Q hQ h, ?_⟩
  intro k c Q hl h hQ t
  have hQe : Q = k.privateKey.k • G :=
    (Secp.rep_coords.2 hQ).unique (Secp.fromSecretKey_rep k.privateKey)
  have h1 : c.privateKey.k = (k.privateKey.k + t) % n := by
    have := xprv_tweak H p.path k c hl h
    rw [← hQe] at this
    exact this
  rw [hp, hp]
  refine ⟨h1, ?_⟩
  have hk : k.privateKey.k < n := Secp.n_eq ▸ k.privateKey.lt
  have hn : 0 < n := Nat.lt_of_le_of_lt (Nat.zero_le _) hk
  rw [h1, Nat.mod_add_mod]
  have hm := Nat.mod_add_div t n
  have hlt := Nat.mod_lt t hn
  have e : k.privateKey.k + t + (n - t % n) = k.privateKey.k + n * (t / n + 1) := by
    rw [Nat.mul_add]
    omega
  rw [e, Nat.add_mul_mod_self_left, Nat.mod_eq_of_lt hk]

-- a path of two normal numbers below a real master key
example : (∀ i ∈ (DerivationPath.mk [⟨1#32⟩, ⟨7#32⟩]).iter, i.n.toNat < 2 ^ 31) ∧
    (XPrv.new Real.hashes (List.replicate 16 7) >>= fun k => k.deriveFromPath Real.hashes ⟨[⟨1#32⟩, ⟨7#32⟩]⟩).isOk = true := by
  decide +kernel

/-- C66. A child never has its parent's key; two children of one parent have the same private key, or the same public
key, exactly when their `I_L` agree. -/
theorem C66_child_keys_differ (H : Hashes) :
    (∀ (k c : XPrv) i, k.deriveChild H i = .ok c → c.toBytes ≠ k.toBytes ∧ c.publicKey.toBytes ≠ k.publicKey.toBytes) ∧
    (∀ (K C : XPub) i, (∃ Q, HasCoords Q K.publicKey.x K.publicKey.y) → K.deriveChild H i = .ok C →
      C.toBytes ≠ K.toBytes) ∧
    (∀ (k c d : XPrv) i j, k.deriveChild H i = .ok c → k.deriveChild H j = .ok d →
      ((c.toBytes = d.toBytes ↔ IL (I (specHash H) k.attrs.chainCode.1 k.privateKey.k i.n.toNat) =
          IL (I (specHash H) k.attrs.chainCode.1 k.privateKey.k j.n.toNat)) ∧
        (c.publicKey.toBytes = d.publicKey.toBytes ↔ c.toBytes = d.toBytes))) := by
  have hpub : ∀ c d : XPrv, c.publicKey.toBytes = d.publicKey.toBytes ↔ c.toBytes = d.toBytes := by
    intro c d
    constructor
    · intro h
      have := Secp.PublicKey.serialize_inj (Secp.fromSecretKey_valid _) (Secp.fromSecretKey_valid _) h
      rw [XPrv.toBytes, Secp.fromSecretKey_inj this]
      rfl
    · intro h
      have := SecretKey.serialize_inj h
      unfold XPrv.publicKey
      rw [this]
      rfl
  have hb : ∀ c d : XPrv, c.toBytes = d.toBytes ↔ c.privateKey.k = d.privateKey.k := by
    intro c d
    constructor
    · intro h; rw [SecretKey.serialize_inj h]
    · intro h
      show c.privateKey.serialize = d.privateKey.serialize
      unfold SecretKey.serialize
      simp only [h]
  refine ⟨?_, ?_, ?_⟩
  · intro k c i h
    have hne : c.toBytes ≠ k.toBytes := by
      rw [Ne, hb]
      intro e
      obtain ⟨_, h1, h2, _, h3, _⟩ := (C34_child_key H k c i).1 h
      have hk : k.privateKey.k < n := Secp.n_eq ▸ k.privateKey.lt
      rw [e] at h3
      generalize IL _ = v at h1 h2 h3
      by_cases hlt : v + k.privateKey.k < n
      · rw [Nat.mod_eq_of_lt hlt] at h3; omega
      · rw [Nat.mod_eq_sub_mod (by omega), Nat.mod_eq_of_lt (by omega)] at h3; omega
    exact ⟨hne, fun e => hne ((hpub c k).1 e)⟩
  · rintro K C i ⟨Q, hQ⟩ h e
    obtain ⟨_, _, h1, h2, h3, _⟩ := (C57_public_child_key H K C Q hQ i).1 h
    have vK := Secp.valid_of_rep (Secp.rep_coords.2 hQ)
    have rC := Secp.rep_coords.2 h3
    have := Secp.PublicKey.serialize_inj (Secp.valid_of_rep rC) vK e
    rw [this] at rC
    have h4 := rC.unique (Secp.rep_coords.2 hQ)
    rw [add_eq_left, Secp.smul_G_eq_zero] at h4
    exact absurd (Nat.le_of_dvd h1 h4) (Nat.not_le.2 (Secp.n_eq ▸ h2))
  · intro k c d i j hc hd
    refine ⟨?_, hpub c d⟩
    obtain ⟨_, _, h2, _, h3, _⟩ := (C34_child_key H k c i).1 hc
    obtain ⟨_, _, h2', _, h3', _⟩ := (C34_child_key H k d j).1 hd
    rw [hb, h3, h3']
    have hk : k.privateKey.k < n := Secp.n_eq ▸ k.privateKey.lt
    generalize IL (I (specHash H) k.attrs.chainCode.1 k.privateKey.k i.n.toNat) = v at *
    generalize IL (I (specHash H) k.attrs.chainCode.1 k.privateKey.k j.n.toNat) = w at *
    constructor
    · intro h
      have : v ≡ w [MOD n] := Nat.ModEq.add_right_cancel' k.privateKey.k h
      exact Nat.ModEq.eq_of_lt_of_lt this h2 h2'
    · intro h; rw [h]

/-- The hypotheses of C65 and C66 are met: with `I_L` always 2, the path 5/6 leads from the private key 1 to 5; the
public tweak is 4. -/
example : ∃ c, exKey.deriveFromPath (constHash 2) ⟨[⟨5⟩, ⟨6⟩]⟩ = .ok c ∧ c.privateKey.k = 5 ∧
    publicTweak (specHash (constHash 2)) exKey.attrs.chainCode.1 (exKey.privateKey.k • G) [5, 6] = 4 := by
  have one : ∀ (k : XPrv) (i : ChildNumber), k.attrs.depth.toNat < 255 → (2 + k.privateKey.k) % n ≠ 0 →
      ∃ c, k.deriveChild (constHash 2) i = .ok c ∧ c.privateKey.k = (2 + k.privateKey.k) % n ∧
        c.attrs.depth.toNat = k.attrs.depth.toNat + 1 := by
    intro k i hd hn
    rcases xprv_outcome (constHash 2) k i with ⟨h, _⟩ | ⟨_, h, _⟩ | ⟨_, _, h, _⟩ | ⟨_, _, _, c, h, hk, _, h3, _⟩
    · omega
    · rw [const_I (by decide)] at h; exact absurd h (by decide)
    · rw [const_I (by decide)] at h; exact absurd h hn
    · rw [const_I (by decide)] at hk
      exact ⟨c, h, hk, h3⟩
  obtain ⟨a, ha, hak, had⟩ := one exKey ⟨5⟩ (by decide) (by decide)
  have hak3 : a.privateKey.k = 3 := hak.trans (by decide)
  have had1 : a.attrs.depth.toNat = 1 := had.trans (by decide)
  obtain ⟨b, hb, hbk, _⟩ := one a ⟨6⟩ (by omega) (by rw [hak3]; decide)
  rw [hak3] at hbk
  refine ⟨b, ?_, hbk.trans (by decide), ?_⟩
  · unfold XPrv.deriveFromPath
    simp only [DerivationPath.iter, List.foldl_cons, List.foldl_nil, Res.ok_bind, ha, hb]
  · have hI : ∀ c K i, IL (Ipub (specHash (constHash 2)) c K i) = 2 := by
      intro c K i
      have : Ipub (specHash (constHash 2)) c K i = natBE 32 2 ++ natBE 32 7 := by
        unfold Ipub
        exact (hmacSha512_spec (constHash 2) c (serP K ++ ser32 i)).symm
      rw [this, const_IL (by decide)]
    simp only [publicTweak, hI]

end Kms.Props
