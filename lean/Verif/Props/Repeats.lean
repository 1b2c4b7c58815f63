import Verif.Props.ChanceKeys
import Verif.Props.ChanceText
import Verif.Props.Unwind
/-
C127: how often keys and fingerprints repeat, when the hash functions give uniformly distributed, pairwise independent bytes.
-/
namespace Kms.Props
open Kms.Bip32 Kms.Spec Kms.Spec.Bip32
open Kms.Spec.Secp (Point G n HasCoords)
open Kms.Secp (SecretKey)
open scoped ENNReal

/-- Two independent uniform strings of 64 bytes have the same left half with probability `2^-256`. -/
theorem left_equal {α : Type} {P : PMF α} {f g : α → Bytes} (h : UniformPair P 64 f g) (hf : ∀ a, (f a).length = 64)
    (hg : ∀ a, (g a).length = 64) : chance P (fun a => IL (f a) = IL (g a)) = (2 ^ 256 : ℝ≥0∞)⁻¹ := by
  rw [pair_fibre (N := 2 ^ 256) h hf hg IL (fun b hb => ?_)]
  · exact pow_split 256 256 (8 * 64) (by norm_num)
  · have := count_halves {IL b} (by rintro x rfl; exact IL_lt b) {c : Bytes | c.length = 32} (fun c hc => hc)
    rw [Set.ncard_singleton, ncard_bytes, one_mul, show (256 : Nat) ^ 32 = 2 ^ 256 by norm_num] at this
    rw [← this]
    congr 1
    ext c
    constructor
    · rintro ⟨h1, h2⟩
      exact ⟨h1, h2.symm, by show (c.drop 32).length = 32; rw [List.length_drop, h1]⟩
    · rintro ⟨h1, h2, _⟩
      exact ⟨h1, (show IL c = IL b from h2).symm⟩

/-- **C127** Derive `m` children of one private key.  If HMAC gives bytes that are uniform, and independent for any two of
the child numbers, then two of the children have the same private key, or equivalently the same public key, with probability
at most `m(m−1)/2 · 2^-256`. -/
theorem C127_siblings (R : PMF Hashes) (k : XPrv) (m : Nat) (i : Fin m → ChildNumber)
    (hR : ∀ a b, a ≠ b → UniformPair R 64 (fun H => I (specHash H) k.attrs.chainCode.1 k.privateKey.k (i a).n.toNat)
      (fun H => I (specHash H) k.attrs.chainCode.1 k.privateKey.k (i b).n.toNat)) :
    chance R (fun H => ∃ a b, a ≠ b ∧ ∃ x y, k.deriveChild H (i a) = .ok x ∧ k.deriveChild H (i b) = .ok y ∧
      (x.toBytes = y.toBytes ∨ x.publicKey.toBytes = y.publicKey.toBytes)) ≤ (m * (m - 1) / 2 : Nat) * (2 ^ 256 : ℝ≥0∞)⁻¹ := by
  refine repeat_bound R _ (fun a b hab => ?_) ?_
  · rw [← left_equal (hR a b hab) (fun H => I_length ..) (fun H => I_length ..)]
    refine chance_mono R fun H => ?_
    rintro ⟨x, y, h1, h2, h3⟩
    obtain ⟨e1, e2⟩ := (C66_child_keys_differ H).2.2 k x y _ _ h1 h2
    rcases h3 with h3 | h3
    · exact e1.1 h3
    · exact e1.1 (e2.1 h3)
  · rintro a b H ⟨x, y, h1, h2, h3⟩
    exact ⟨y, x, h2, h1, h3.imp Eq.symm Eq.symm⟩

/-- **C127** Make the master keys of `m` seeds.  If HMAC gives bytes that are uniform, and independent for any two of the
seeds, then two of the master keys are the same with probability at most `m(m−1)/2 · 2^-256`. -/
theorem C127_masters (R : PMF Hashes) (m : Nat) (seed : Fin m → Bytes)
    (hR : ∀ a b, a ≠ b → UniformPair R 64 (fun H => master (specHash H) (seed a)) (fun H => master (specHash H) (seed b))) :
    chance R (fun H => ∃ a b, a ≠ b ∧ ∃ x y, XPrv.new H (seed a) = .ok x ∧ XPrv.new H (seed b) = .ok y ∧
      x.toBytes = y.toBytes) ≤ (m * (m - 1) / 2 : Nat) * (2 ^ 256 : ℝ≥0∞)⁻¹ := by
  refine repeat_bound R _ (fun a b hab => ?_) ?_
  · rw [← left_equal (hR a b hab) (fun H => master_length ..) (fun H => master_length ..)]
    refine chance_mono R fun H => ?_
    rintro ⟨x, y, h1, h2, h3⟩
    have e := SecretKey.serialize_inj h3
    have h4 := (((C36_master_key H (seed a)).2.2.1 x).1 h1).2.2.2.1
    have h5 := (((C36_master_key H (seed b)).2.2.1 y).1 h2).2.2.2.1
    rw [← h4, ← h5, e]
  · rintro a b H ⟨x, y, h1, h2, h3⟩
    exact ⟨y, x, h2, h1, h3.symm⟩

/-- **C127** Fingerprints do repeat: two different public keys have the same fingerprint with probability exactly `2^-32`,
and of `m` keys two do with probability at most `m(m−1)/2 · 2^-32`, if RIPEMD-160 of SHA-256 gives uniform bytes,
independent for any two of the keys. -/
theorem C127_fingerprints (R : PMF Hashes) (m : Nat) (K : Fin m → XPub)
    (hR : ∀ a b, a ≠ b → UniformPair R 20 (fun H => (H.ripemd160 (H.sha256 (K a).toBytes.1).1).1)
      (fun H => (H.ripemd160 (H.sha256 (K b).toBytes.1).1).1)) :
    (∀ a b, a ≠ b → chance R (fun H => (K a).fingerprint H = (K b).fingerprint H) = (2 ^ 32 : ℝ≥0∞)⁻¹) ∧
    chance R (fun H => ∃ a b, a ≠ b ∧ (K a).fingerprint H = (K b).fingerprint H) ≤
      (m * (m - 1) / 2 : Nat) * (2 ^ 32 : ℝ≥0∞)⁻¹ := by
  have one : ∀ a b, a ≠ b → chance R (fun H => (K a).fingerprint H = (K b).fingerprint H) = (2 ^ 32 : ℝ≥0∞)⁻¹ := by
    intro a b hab
    have := pair_fibre (N := 256 ^ 16) (hR a b hab) (fun H => (H.ripemd160 _).2) (fun H => (H.ripemd160 _).2) (List.take 4)
      (fun b hb => by
        have := bytes_prefix_count (b.take 4) 16
        rw [List.length_take, hb] at this
        rw [← this]
        congr 1
        ext c
        exact ⟨fun h => ⟨h.1, h.2.symm⟩, fun h => ⟨h.1, h.2.symm⟩⟩)
    rw [chance_congr R (B := fun H => (H.ripemd160 (H.sha256 (K a).toBytes.1).1).1.take 4 =
      (H.ripemd160 (H.sha256 (K b).toBytes.1).1).1.take 4), this, show (256 : Nat) ^ 16 = 2 ^ 128 by norm_num]
    · exact pow_split 128 32 (8 * 20) (by norm_num)
    · intro H
      exact ⟨fun h => congrArg Subtype.val h, fun h => Subtype.ext h⟩
  exact ⟨one, repeat_bound R _ (fun a b hab => (one a b hab).le) (fun a b H h => h.symm)⟩

/-! ### such hash functions exist -/

theorem hmac_key (key : List UInt8) (hk : key.length ≤ 128) :
    ∃ p q : List UInt8, p.length = 128 ∧ q.length = 128 ∧ p ≠ q ∧ ∀ h : List UInt8 → List UInt8, ∀ m, hmac h key m = h (p ++ h (q ++ m)) := by
  refine ⟨(List.range 128).map (fun i => key.getD i 0 ^^^ 0x5c), (List.range 128).map (fun i => key.getD i 0 ^^^ 0x36),
    by simp, by simp, ?_, ?_⟩
  · intro e
    have := congrArg (fun l => l[0]?) e
    simp only [List.getElem?_map, List.getElem?_range (show 0 < 128 by decide), Option.map_some, Option.some.injEq] at this
    generalize key.getD 0 0 = x at this
    have := congrArg (fun y => x ^^^ y) this
    simp [← UInt8.xor_assoc] at this
  · intro h m
    unfold hmac
    rw [if_neg (by omega)]

/-- For messages numbered by `msg` there are hash functions whose HMAC on these messages is any given table. -/
theorem hmac_table (key : Bytes) (hk : key.length ≤ 128) (m : Nat) (msg : Fin m → Bytes) (hm : Function.Injective msg)
    (hcap : m ≤ 256 ^ 64) : ∃ H1 : (Fin m → ByteArr 64) → Hashes, ∀ t a,
      hmac (fun x => ((H1 t).sha512 x).1) key (msg a) = (t a).1 := by
  classical
  obtain ⟨p, q, hp, hq, hpq, hh⟩ := hmac_key key hk
  have henc : ∃ enc : Fin m → ByteArr 64, Function.Injective enc := by
    refine ⟨fun a => ⟨natBE 64 a.1, natBE_length _ _⟩, fun a b hab => ?_⟩
    have := congrArg beNat (congrArg Subtype.val hab)
    simp only [beNat_natBE] at this
    have ha := a.2
    have hb := b.2
    rw [Nat.mod_eq_of_lt, Nat.mod_eq_of_lt] at this
    · exact Fin.ext this
    · exact Nat.lt_of_lt_of_le hb hcap
    · exact Nat.lt_of_lt_of_le ha hcap
  obtain ⟨enc, hinj⟩ := henc
  have H0 : Hashes := ⟨fun _ => ⟨List.replicate 32 0, by simp⟩, fun _ => ⟨List.replicate 64 0, by simp⟩,
    fun _ => ⟨List.replicate 20 0, by simp⟩⟩
  let H1 : (Fin m → ByteArr 64) → Hashes := fun t => { H0 with
    sha512 := fun x =>
      if h : ∃ a, x = q ++ msg a then enc h.choose
      else if h : ∃ a, x = p ++ (enc a).1 then t h.choose
      else ⟨List.replicate 64 0, by simp⟩ }
  have key1 : ∀ t a, ((H1 t).sha512 (q ++ msg a)) = enc a := by
    intro t a
    have h : ∃ b, q ++ msg a = q ++ msg b := ⟨a, rfl⟩
    show (if h : ∃ b, q ++ msg a = q ++ msg b then enc h.choose else _) = _
    rw [dif_pos h]
    congr 1
    exact (hm (List.append_cancel_left h.choose_spec)).symm
  have key2 : ∀ t a, ((H1 t).sha512 (p ++ (enc a).1)) = t a := by
    intro t a
    have h0 : ¬ ∃ b, p ++ (enc a).1 = q ++ msg b := by
      rintro ⟨b, h⟩
      exact hpq (List.append_inj h (hp.trans hq.symm)).1
    have h : ∃ b, p ++ (enc a).1 = p ++ (enc b).1 := ⟨a, rfl⟩
    show (if h : ∃ b, p ++ (enc a).1 = q ++ msg b then enc h.choose else
      if h : ∃ b, p ++ (enc a).1 = p ++ (enc b).1 then t h.choose else _) = _
    rw [dif_neg h0, dif_pos h]
    congr 1
    exact (hinj (Subtype.ext (List.append_cancel_left h.choose_spec))).symm
  refine ⟨H1, fun t a => ?_⟩
  rw [hh, key1, key2]

/-- There are hash functions whose HMAC on these messages is uniform and independent for any two. -/
theorem uniform_hmac (key : Bytes) (hk : key.length ≤ 128) (m : Nat) (msg : Fin m → Bytes) (hm : Function.Injective msg)
    (hcap : m ≤ 256 ^ 64) : ∃ R : PMF Hashes, ∀ a b, a ≠ b →
      UniformPair R 64 (fun H => hmac (fun x => (H.sha512 x).1) key (msg a)) (fun H => hmac (fun x => (H.sha512 x).1) key (msg b)) := by
  obtain ⟨H1, h1⟩ := hmac_table key hk m msg hm hcap
  obtain ⟨P, hP⟩ := uniform_pairs m 64
  refine ⟨P.map H1, fun a b hab c d hc hd => ?_⟩
  rw [chance_map, ← hP a b hab c d hc hd]
  refine chance_congr P fun t => ?_
  show hmac _ key (msg a) = c ∧ hmac _ key (msg b) = d ↔ _
  rw [h1, h1]

-- every set of different child numbers, hardened and not, of every key: for example all four billion of them
example (k : XPrv) : ∃ R : PMF Hashes, chance R (fun H => ∃ a b : Fin (2 ^ 32), a ≠ b ∧ ∃ x y,
    k.deriveChild H ⟨BitVec.ofNat 32 a⟩ = .ok x ∧ k.deriveChild H ⟨BitVec.ofNat 32 b⟩ = .ok y ∧
      (x.toBytes = y.toBytes ∨ x.publicKey.toBytes = y.publicKey.toBytes)) ≤ 2 ^ 63 * (2 ^ 256 : ℝ≥0∞)⁻¹ := by
  have hinj : Function.Injective fun a : Fin (2 ^ 32) => data k.privateKey.k (BitVec.ofNat 32 a.1).toNat := by
    intro a b hab
    have := ((C52_hmac_input_injective k k ⟨BitVec.ofNat 32 a.1⟩ ⟨BitVec.ofNat 32 b.1⟩).1 hab).1
    have := congrArg (fun c : ChildNumber => c.n.toNat) this
    simp only [BitVec.toNat_ofNat] at this
    rw [Nat.mod_eq_of_lt a.2, Nat.mod_eq_of_lt b.2] at this
    exact Fin.ext this
  obtain ⟨R, hR⟩ := uniform_hmac k.attrs.chainCode.1 (by rw [k.attrs.chainCode.2]; decide) (2 ^ 32) _ hinj
    (by norm_num)
  refine ⟨R, (C127_siblings R k (2 ^ 32) (fun a => ⟨BitVec.ofNat 32 a.1⟩) hR).trans ?_⟩
  gcongr
  have : 2 ^ 32 * (2 ^ 32 - 1) / 2 ≤ 2 ^ 63 := by norm_num
  exact_mod_cast this

-- any number of different seeds
example (m : Nat) (hm : m ≤ 256 ^ 64) (seed : Fin m → Bytes) (hs : Function.Injective seed) : ∃ R : PMF Hashes,
    chance R (fun H => ∃ a b, a ≠ b ∧ ∃ x y, XPrv.new H (seed a) = .ok x ∧ XPrv.new H (seed b) = .ok y ∧
      x.toBytes = y.toBytes) ≤ (m * (m - 1) / 2 : Nat) * (2 ^ 256 : ℝ≥0∞)⁻¹ := by
  obtain ⟨R, hR⟩ := uniform_hmac ("Bitcoin seed".toList.map (fun c => UInt8.ofNat c.toNat)) (by decide) m seed hs hm
  exact ⟨R, C127_masters R m seed hR⟩

-- any two keys of different text
example (K L : XPub) (h : K.toBytes ≠ L.toBytes) : ∃ R : PMF Hashes,
    chance R (fun H => K.fingerprint H = L.fingerprint H) = (2 ^ 32 : ℝ≥0∞)⁻¹ := by
  classical
  obtain ⟨P, hP⟩ := uniform_pairs 2 20
  have H0 : Hashes := ⟨fun _ => ⟨List.replicate 32 0, by simp⟩, fun _ => ⟨List.replicate 64 0, by simp⟩,
    fun _ => ⟨List.replicate 20 0, by simp⟩⟩
  let A : ByteArr 32 := ⟨List.replicate 32 0, by simp⟩
  let B : ByteArr 32 := ⟨List.replicate 32 1, by simp⟩
  let H1 : (Fin 2 → ByteArr 20) → Hashes := fun t => { H0 with
    sha256 := fun x => if x = K.toBytes.1 then A else B
    ripemd160 := fun x => if x = A.1 then t 0 else t 1 }
  have hne : L.toBytes.1 ≠ K.toBytes.1 := fun e => h (Subtype.ext e.symm)
  have hAB : B.1 ≠ A.1 := by decide
  have k0 : ∀ t, (H1 t).ripemd160 ((H1 t).sha256 K.toBytes.1).1 = t 0 := by
    intro t
    show (if (if K.toBytes.1 = K.toBytes.1 then A else B).1 = A.1 then t 0 else t 1) = _
    rw [if_pos rfl, if_pos rfl]
  have k1 : ∀ t, (H1 t).ripemd160 ((H1 t).sha256 L.toBytes.1).1 = t 1 := by
    intro t
    show (if (if L.toBytes.1 = K.toBytes.1 then A else B).1 = A.1 then t 0 else t 1) = _
    rw [if_neg hne, if_neg hAB]
  refine ⟨P.map H1, (C127_fingerprints (P.map H1) 2 ![K, L] ?_).1 0 1 (by decide)⟩
  intro a b hab c d hc hd
  rw [chance_map, ← hP a b hab c d hc hd]
  refine chance_congr P fun t => ?_
  have : ∀ a : Fin 2, (H1 t).ripemd160 ((H1 t).sha256 ((![K, L] : Fin 2 → XPub) a).toBytes.1).1 = t a := by
    intro a
    fin_cases a
    exacts [k0 t, k1 t]
  show ((H1 t).ripemd160 _).1 = c ∧ ((H1 t).ripemd160 _).1 = d ↔ _
  rw [this, this]

end Kms.Props
