import Verif.Proofs.SecpCount
import Verif.Model.Keys
import Verif.Props.PhraseCount
/-
C91: how many left halves of an HMAC give which child key.
-/
namespace Kms.Props
open Bip32
open Secp (SecretKey)

/-- Byte strings of 32 bytes whose number is in a set. -/
theorem ncard_be (S : Set Nat) (hS : ∀ x ∈ S, x < 2 ^ 256) :
    {L : ByteArr 32 | beNat L.1 ∈ S}.ncard = S.ncard := by
  apply Set.ncard_congr (fun L _ => beNat L.1)
  · exact fun L hL => hL
  · intro L M _ _ h
    have h1 := natBE_beNat L.1
    have h2 := natBE_beNat M.1
    rw [L.2] at h1
    rw [M.2] at h2
    exact Subtype.ext (h1.symm.trans ((congrArg (natBE 32) h).trans h2))
  · intro x hx
    refine ⟨⟨natBE 32 x, natBE_length 32 x⟩, ?_, ?_⟩
    · show beNat (natBE 32 x) ∈ S
      rw [beNat_natBE, Nat.mod_eq_of_lt (Nat.lt_of_lt_of_le (hS x hx) (by decide))]
      exact hx
    · show beNat (natBE 32 x) = x
      rw [beNat_natBE, Nat.mod_eq_of_lt (Nat.lt_of_lt_of_le (hS x hx) (by decide))]

theorem ncard_unparsed (r : Res Secp.Error SecretKey → Prop) (h1 : r (.err .invalidSecretKey)) (h2 : ∀ s, ¬ r (.ok s)) :
    {L : ByteArr 32 | r (SecretKey.parse L)}.ncard = 2 ^ 256 - (Spec.Secp.n - 1) := by
  have e : {L : ByteArr 32 | r (SecretKey.parse L)} = {L | beNat L.1 ∈ ((Finset.range (2 ^ 256) \ Finset.Ioo 0 Secp.n : Finset Nat) : Set Nat)} := by
    ext L
    have hl := beNat_lt L.1
    rw [L.2] at hl
    simp only [Set.mem_ofPred_eq, Finset.coe_sdiff, Set.mem_sdiff, Finset.mem_coe, Finset.mem_range, Finset.mem_Ioo]
    rcases SecretKey.parse_cases L with ⟨s, hs, _, hk⟩ | ⟨hs, hk⟩
    · rw [hs]
      have := s.pos
      have := s.lt
      constructor
      · exact fun h => absurd h (h2 s)
      · intro h; omega
    · rw [hs]
      exact ⟨fun _ => ⟨hl, by omega⟩, fun _ => h1⟩
  rw [e, ncard_be _ (by intro x hx; simp at hx; exact hx.1), Set.ncard_coe_finset, Finset.card_sdiff_of_subset, Finset.card_range,
    Nat.card_Ioo, Secp.n_eq]
  · rfl
  · intro x hx
    rw [Finset.mem_Ioo] at hx
    rw [Finset.mem_range]
    exact Nat.lt_trans hx.2 Secp.n_lt

theorem parse_inj {L M : ByteArr 32} {s : SecretKey} (h1 : SecretKey.parse L = .ok s) (h2 : SecretKey.parse M = .ok s) : L = M := by
  rcases SecretKey.parse_cases L with ⟨a, ha, hb, _⟩ | ⟨ha, _⟩ <;> rw [h1] at ha <;> simp only [Res.ok.injEq, reduceCtorEq] at ha
  rcases SecretKey.parse_cases M with ⟨a', ha', hb', _⟩ | ⟨ha', _⟩ <;> rw [h2] at ha' <;> simp only [Res.ok.injEq, reduceCtorEq] at ha'
  rw [← hb, ← hb', ← ha, ← ha']

theorem tweak_value (s u : SecretKey) (h : u ≠ s) : ∃ t : SecretKey, s.tweakAdd t = .ok u := by
  have hne : u.k ≠ s.k := fun e => h (by cases u; cases s; cases e; rfl)
  have := u.pos; have := u.lt; have := s.pos; have := s.lt
  have ht : 0 < (if s.k < u.k then u.k - s.k else u.k + Secp.n - s.k) ∧
      (if s.k < u.k then u.k - s.k else u.k + Secp.n - s.k) < Secp.n ∧
      (s.k + (if s.k < u.k then u.k - s.k else u.k + Secp.n - s.k)) % Secp.n = u.k := by
    split
    · refine ⟨by omega, by omega, ?_⟩
      rw [show s.k + (u.k - s.k) = u.k from by omega, Nat.mod_eq_of_lt u.lt]
    · refine ⟨by omega, by omega, ?_⟩
      rw [show s.k + (u.k + Secp.n - s.k) = u.k + Secp.n from by omega, Nat.add_mod_right, Nat.mod_eq_of_lt u.lt]
  refine ⟨⟨_, ht.1, ht.2.1⟩, ?_⟩
  rcases SecretKey.tweakAdd_cases s ⟨_, ht.1, ht.2.1⟩ with ⟨v, hv, hk⟩ | ⟨_, hz⟩
  · rw [hv]
    rw [ht.2.2] at hk
    cases u; cases v; cases hk; rfl
  · rw [ht.2.2] at hz
    omega

theorem mod_cancel {a b c : Nat} (hb : b < Secp.n) (hc : c < Secp.n) (h : (a + b) % Secp.n = (a + c) % Secp.n) : b = c := by
  have h1 := Nat.ModEq.add_left_cancel' a h
  have h2 : b % Secp.n = c % Secp.n := h1
  rwa [Nat.mod_eq_of_lt hb, Nat.mod_eq_of_lt hc] at h2

theorem tweak_inj {s t t' u : SecretKey} (h1 : s.tweakAdd t = .ok u) (h2 : s.tweakAdd t' = .ok u) : t = t' := by
  rcases SecretKey.tweakAdd_cases s t with ⟨v, hv, hk⟩ | ⟨hv, _⟩ <;> rw [h1] at hv <;> simp only [Res.ok.injEq, reduceCtorEq] at hv
  rcases SecretKey.tweakAdd_cases s t' with ⟨v', hv', hk'⟩ | ⟨hv', _⟩ <;> rw [h2] at hv' <;>
    simp only [Res.ok.injEq, reduceCtorEq] at hv'
  subst hv; subst hv'
  have := mod_cancel t.lt t'.lt (hk.symm.trans hk')
  cases t; cases t'; cases this; rfl

theorem tweak_self (s t : SecretKey) : s.tweakAdd t ≠ .ok s := by
  intro h
  rcases SecretKey.tweakAdd_cases s t with ⟨v, hv, hk⟩ | ⟨hv, _⟩ <;> rw [h] at hv <;> simp only [Res.ok.injEq, reduceCtorEq] at hv
  subst hv
  have h0 : (s.k + t.k) % Secp.n = (s.k + 0) % Secp.n := by rw [← hk, Nat.add_zero, Nat.mod_eq_of_lt s.lt]
  have := mod_cancel t.lt (Nat.lt_trans s.pos s.lt) h0
  have := t.pos
  omega

theorem tweak_neg (s : SecretKey) : ∃ t : SecretKey, s.tweakAdd t = .err .tweakOutOfRange ∧
    ∀ t', s.tweakAdd t' = .err .tweakOutOfRange → t' = t := by
  have := s.pos; have := s.lt
  have hz : ∀ t : SecretKey, s.tweakAdd t = .err .tweakOutOfRange ↔ (s.k + t.k) % Secp.n = 0 := by
    intro t
    rcases SecretKey.tweakAdd_cases s t with ⟨v, hv, hk⟩ | ⟨hv, h0⟩
    · rw [hv, ← hk]
      have := v.pos
      simp only [reduceCtorEq, false_iff]; omega
    · simp [hv, h0]
  have h1 : (s.k + (Secp.n - s.k)) % Secp.n = 0 := by
    rw [show s.k + (Secp.n - s.k) = Secp.n from by omega, Nat.mod_self]
  refine ⟨⟨Secp.n - s.k, by omega, by omega⟩, (hz _).2 h1, ?_⟩
  intro t' h'
  have := mod_cancel t'.lt (by omega) (((hz t').1 h').trans h1.symm)
  cases t'; cases this; rfl

theorem derive_of_parse {L : ByteArr 32} {t : SecretKey} (k : SecretKey) (h : SecretKey.parse L = .ok t) :
    PrivateKey.deriveChild k L = cryptoErr (k.tweakAdd t) := by
  unfold PrivateKey.deriveChild
  rw [h]
  rfl

theorem derive_panic_iff (k : SecretKey) (L : ByteArr 32) :
    PrivateKey.deriveChild k L = .panic ↔ SecretKey.parse L = .err .invalidSecretKey := by
  rcases SecretKey.parse_cases L with ⟨t, ht, _⟩ | ⟨ht, _⟩
  · rw [derive_of_parse k ht, ht]
    rcases SecretKey.tweakAdd_cases k t with ⟨v, hv, _⟩ | ⟨hv, _⟩ <;> rw [hv] <;> simp [cryptoErr, Res.mapErr]
  · unfold PrivateKey.deriveChild
    rw [ht]
    simp [unwrap]

theorem derive_parse {L : ByteArr 32} {k : SecretKey} {r : Res Error SecretKey} (h : PrivateKey.deriveChild k L = r)
    (hr : r ≠ .panic) : ∃ t, SecretKey.parse L = .ok t ∧ cryptoErr (k.tweakAdd t) = r := by
  rcases SecretKey.parse_cases L with ⟨t, ht, _⟩ | ⟨ht, _⟩
  · exact ⟨t, ht, by rw [← derive_of_parse k ht, h]⟩
  · exact absurd (h.symm.trans ((derive_panic_iff k L).2 ht)) hr

theorem cryptoErr_ok {α : Type} {r : Res Secp.Error α} {a : α} (h : cryptoErr r = .ok a) : r = .ok a := by
  cases r <;> simp_all [cryptoErr, Res.mapErr]

theorem cryptoErr_err {s t : SecretKey} (h : cryptoErr (s.tweakAdd t) = .err .crypto) : s.tweakAdd t = .err .tweakOutOfRange := by
  rcases SecretKey.tweakAdd_cases s t with ⟨v, hv, _⟩ | ⟨hv, _⟩
  · rw [hv] at h; simp [cryptoErr, Res.mapErr] at h
  · exact hv

/-- Derivation of public keys follows that of secret keys. -/
theorem pub_derive (s : SecretKey) (L : ByteArr 32) :
    PublicKey.deriveChild (PrivateKey.publicKey s) L =
      (PrivateKey.deriveChild s L).bind (fun u => .ok (PrivateKey.publicKey u)) := by
  rcases SecretKey.parse_cases L with ⟨t, ht, _⟩ | ⟨ht, _⟩
  · rw [derive_of_parse s ht]
    unfold PublicKey.deriveChild PrivateKey.publicKey
    rw [ht]
    show cryptoErr ((Secp.PublicKey.fromSecretKey s).tweakAdd t) = _
    rw [Secp.tweak_commutes]
    rcases SecretKey.tweakAdd_cases s t with ⟨v, hv, _⟩ | ⟨hv, _⟩ <;> rw [hv] <;> rfl
  · rw [(derive_panic_iff s L).2 ht]
    unfold PublicKey.deriveChild
    rw [ht]
    rfl

/-- **C91** Over the `2^256` values of 32 bytes: each secret key is read from exactly one of them, and `2^256 − (n − 1)`
are refused.  Deriving from a secret key, each other secret key comes from exactly one value, the key itself from none,
exactly one value gives the error `Crypto` and `2^256 − (n − 1)` values panic.  The same counts hold for deriving from a
public key.  The refused and panicking values are fewer than `2^129`. -/
theorem C91_left_halves (k : SecretKey) (P : Secp.PublicKey) (hP : P.Valid) :
    ((∀ u, ∃! L, PrivateKey.fromBytes L = .ok u) ∧
      {L | PrivateKey.fromBytes L = .err .crypto}.ncard = 2 ^ 256 - (Spec.Secp.n - 1)) ∧
    ((∀ u, u ≠ k → ∃! L, PrivateKey.deriveChild k L = .ok u) ∧ (∀ L, PrivateKey.deriveChild k L ≠ .ok k) ∧
      (∃! L, PrivateKey.deriveChild k L = .err .crypto) ∧
      {L | PrivateKey.deriveChild k L = .panic}.ncard = 2 ^ 256 - (Spec.Secp.n - 1)) ∧
    ((∀ Q : Secp.PublicKey, Q.Valid → Q ≠ P → ∃! L, PublicKey.deriveChild P L = .ok Q) ∧
      (∀ L, PublicKey.deriveChild P L ≠ .ok P) ∧
      (∃! L, PublicKey.deriveChild P L = .err .crypto) ∧
      {L | PublicKey.deriveChild P L = .panic}.ncard = 2 ^ 256 - (Spec.Secp.n - 1)) ∧
    2 ^ 256 - (Spec.Secp.n - 1) < 2 ^ 129 := by
  have priv : ∀ k : SecretKey, (∀ u, u ≠ k → ∃! L, PrivateKey.deriveChild k L = .ok u) ∧
      (∀ L, PrivateKey.deriveChild k L ≠ .ok k) ∧ (∃! L, PrivateKey.deriveChild k L = .err .crypto) ∧
      {L | PrivateKey.deriveChild k L = .panic}.ncard = 2 ^ 256 - (Spec.Secp.n - 1) := by
    intro k
    refine ⟨?_, ?_, ?_, ?_⟩
    · intro u hu
      obtain ⟨t, ht⟩ := tweak_value k u hu
      refine ⟨t.serialize, ?_, ?_⟩
      · show PrivateKey.deriveChild k t.serialize = .ok u
        rw [derive_of_parse k t.parse_serialize, ht]; rfl
      · intro L hL
        obtain ⟨t', h1, h2⟩ := derive_parse hL (by simp)
        have := tweak_inj (cryptoErr_ok h2) ht
        subst this
        exact parse_inj h1 t'.parse_serialize
    · intro L hL
      obtain ⟨t', _, h2⟩ := derive_parse hL (by simp)
      exact tweak_self k t' (cryptoErr_ok h2)
    · obtain ⟨t, ht, huniq⟩ := tweak_neg k
      refine ⟨t.serialize, ?_, ?_⟩
      · show PrivateKey.deriveChild k t.serialize = .err .crypto
        rw [derive_of_parse k t.parse_serialize, ht]; rfl
      · intro L hL
        obtain ⟨t', h1, h2⟩ := derive_parse hL (by simp)
        have := huniq t' (cryptoErr_err h2)
        subst this
        exact parse_inj h1 t'.parse_serialize
    · simp only [derive_panic_iff]
      exact ncard_unparsed (· = .err .invalidSecretKey) rfl (by simp)
  refine ⟨⟨?_, ?_⟩, priv k, ?_, by decide⟩
  · intro u
    refine ⟨u.serialize, ?_, ?_⟩
    · show cryptoErr (SecretKey.parse u.serialize) = .ok u
      rw [u.parse_serialize]; rfl
    · intro L hL
      exact parse_inj (cryptoErr_ok hL) u.parse_serialize
  · exact ncard_unparsed (fun r => cryptoErr r = .err .crypto) rfl (by simp [cryptoErr, Res.mapErr])
  · obtain ⟨s, hs⟩ := Secp.exists_secret hP
    have hs : PrivateKey.publicKey s = P := hs
    obtain ⟨p1, p2, p3, p4⟩ := priv s
    have hok : ∀ L u, PublicKey.deriveChild P L = .ok (PrivateKey.publicKey u) ↔ PrivateKey.deriveChild s L = .ok u := by
      intro L u
      rw [← hs, pub_derive]
      cases PrivateKey.deriveChild s L with
      | ok v =>
        simp only [Res.bind, Res.ok.injEq]
        exact ⟨fun h => Secp.fromSecretKey_inj h, fun h => by rw [h]⟩
      | err e => simp [Res.bind]
      | panic => simp [Res.bind]
    have herr : ∀ L, PublicKey.deriveChild P L = .err .crypto ↔ PrivateKey.deriveChild s L = .err .crypto := by
      intro L
      rw [← hs, pub_derive]
      cases PrivateKey.deriveChild s L <;> simp [Res.bind]
    have hpan : ∀ L, PublicKey.deriveChild P L = .panic ↔ PrivateKey.deriveChild s L = .panic := by
      intro L
      rw [← hs, pub_derive]
      cases PrivateKey.deriveChild s L <;> simp [Res.bind]
    refine ⟨?_, ?_, ?_, ?_⟩
    · intro Q hQ hne
      obtain ⟨u, hu⟩ := Secp.exists_secret hQ
      have hu : PrivateKey.publicKey u = Q := hu
      rw [← hu]
      simp only [hok]
      exact p1 u (fun e => hne (by rw [← hu, ← hs, e]))
    · intro L hL
      exact p2 L ((hok L s).1 (by rw [hs]; exact hL))
    · simpa only [herr] using p3
    · simpa only [hpan] using p4

/-- The public key of the secret key 1 is valid, and 0 and n are among the panicking values. -/
example : (PrivateKey.publicKey ⟨1, by decide, by decide⟩).Valid ∧
    PrivateKey.deriveChild ⟨1, by decide, by decide⟩ (zeroArr 32) = .panic ∧
    PrivateKey.deriveChild ⟨1, by decide, by decide⟩ ⟨natBE 32 Spec.Secp.n, by decide⟩ = .panic ∧
    PrivateKey.deriveChild ⟨1, by decide, by decide⟩ ⟨natBE 32 (Spec.Secp.n - 1), by decide⟩ = .err .crypto ∧
    PrivateKey.deriveChild ⟨1, by decide, by decide⟩ ⟨natBE 32 5, by decide⟩ = .ok ⟨6, by decide, by decide⟩ := by
  refine ⟨⟨by decide +kernel, by decide +kernel, by decide +kernel⟩, ?_, ?_, ?_, ?_⟩ <;> decide +kernel

end Kms.Props
