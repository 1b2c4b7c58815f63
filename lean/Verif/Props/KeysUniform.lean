import Verif.Props.Repeats
import Verif.Spec.ChanceFamily
/-
C128: the keys made from independent uniform hash values are themselves uniform and independent.
-/
namespace Kms.Props
open Kms.Bip32 Kms.Spec Kms.Spec.Bip32
open Kms.Spec.Secp (Point G n HasCoords)
open Kms.Secp (SecretKey)
open scoped ENNReal

/-- A string of 64 bytes is known from its halves. -/
theorem halves_iff {b : Bytes} (hb : b.length = 64) {v : Nat} (hv : v < 2 ^ 256) (c : ByteArr 32) :
    IL b = v ∧ IR b = c.1 ↔ b = natBE 32 v ++ c.1 := by
  have hv' : v < 256 ^ 32 := by rw [show (256 : Nat) ^ 32 = 2 ^ 256 by norm_num]; exact hv
  constructor
  · rintro ⟨h1, h2⟩
    have h3 : b.take 32 = natBE 32 v := by
      have h4 : (b.take 32).length = 32 := by rw [List.length_take, hb]; rfl
      have h5 : beNat (b.take 32) = v := by rw [← h1]; exact (bytesVal_eq _).symm
      have := natBE_beNat (b.take 32)
      rw [h4, h5] at this
      exact this.symm
    rw [← h3, ← h2]
    exact (List.take_append_drop 32 b).symm
  · rintro rfl
    constructor
    · show bytesVal ((natBE 32 v ++ c.1).take 32) = v
      rw [List.take_append_of_le_length (by simp), List.take_of_length_le (by simp), bytesVal_eq, beNat_natBE,
        Nat.mod_eq_of_lt hv']
    · show (natBE 32 v ++ c.1).drop 32 = c.1
      exact List.drop_left' (by simp)

/-- The one hash value that gives a child its key and chain code. -/
theorem child_iff (H : Hashes) (k : XPrv) (i : ChildNumber) (hd : k.attrs.depth.toNat < 255) (d : SecretKey)
    (hne : d ≠ k.privateKey) (e : ByteArr 32) :
    (∃ c, k.deriveChild H i = .ok c ∧ c.toSecretKey = d ∧ c.attrs.chainCode = e) ↔
      I (specHash H) k.attrs.chainCode.1 k.privateKey.k i.n.toNat = natBE 32 ((d.k + (n - k.privateKey.k)) % n) ++ e.1 := by
  have hk0 := k.privateKey.pos
  have hkn : k.privateKey.k < n := k.privateKey.lt
  have hd0 := d.pos
  have hdn : d.k < n := d.lt
  have hn256 : n < 2 ^ 256 := by decide
  have hnn : 0 < n := by omega
  have hdk : d.k ≠ k.privateKey.k := fun h => hne (by cases d; cases hk : k.privateKey; simp_all)
  set v := (d.k + (n - k.privateKey.k)) % n with hv
  have hvn : v < n := Nat.mod_lt _ hnn
  have hv2 : v = if k.privateKey.k ≤ d.k then d.k - k.privateKey.k else d.k + (n - k.privateKey.k) := by
    rw [hv]
    split_ifs with h
    · rw [show d.k + (n - k.privateKey.k) = (d.k - k.privateKey.k) + n by omega, Nat.add_mod_right]
      exact Nat.mod_eq_of_lt (by omega)
    · exact Nat.mod_eq_of_lt (by omega)
  have hsum : ∀ x, x < n → ((x + k.privateKey.k) % n = d.k ↔ x = v) := by
    intro x hx
    have h1 : (x + k.privateKey.k) % n = if x + k.privateKey.k < n then x + k.privateKey.k else x + k.privateKey.k - n := by
      split_ifs with h
      · exact Nat.mod_eq_of_lt h
      · rw [Nat.mod_eq_sub_mod (by omega)]
        exact Nat.mod_eq_of_lt (by omega)
    rw [h1, hv2]
    split_ifs <;> omega
  have hv0 : 0 < v := by
    rw [hv2]
    split_ifs <;> omega
  rw [← halves_iff (I_length ..) (Nat.lt_trans hvn hn256) e]
  constructor
  · rintro ⟨c, h, rfl, rfl⟩
    obtain ⟨_, _, h2, _, h3, h4, _⟩ := (C34_child_key H k c i).1 h
    exact ⟨(hsum _ h2).1 h3.symm, h4.symm⟩
  · rintro ⟨h1, h2⟩
    have hb := (hsum v hvn).2 rfl
    refine ⟨⟨d, ⟨k.attrs.depth + 1, k.publicKey.fingerprint H, i, e⟩⟩, ?_, rfl, rfl⟩
    refine (C34_child_key H k _ i).2 ⟨hd, ?_, ?_, ?_, ?_, h2.symm, ?_, rfl, ?_⟩
    · rw [h1]; exact hv0
    · rw [h1]; exact hvn
    · rw [h1, hb]; omega
    · rw [h1, hb]
    · show (k.attrs.depth + 1).toNat = _
      rw [UInt8.toNat_add]
      exact Nat.mod_eq_of_lt (by simpa using (by omega : k.attrs.depth.toNat + 1 < 256))
    · exact (C55_neutering H k).2.2.1

theorem family_chance {α : Type} {m : Nat} {P : PMF α} {f : Fin m → α → Bytes} (h : UniformFamily P 64 f)
    (A : Fin m → α → Prop) (b : Fin m → Bytes) (hb : ∀ a, (b a).length = 64) (hA : ∀ a x, A a x ↔ f a x = b a) :
    chance P (fun x => ∀ a, A a x) = ((2 ^ 512 : ℝ≥0∞)⁻¹) ^ m := by
  rw [chance_congr P (B := fun x => ∀ a, f a x = b a) (fun x => forall_congr' fun a => hA a x)]
  exact h b hb

/-- **C128** Make any number of calls of `derive_child`, hardened or not, on private keys of depth below 255.  If HMAC gives
uniform bytes, independent for these calls, then all combinations of private keys and chain codes are equally likely as their
results, `2^-512` for each call, except that no child has the key of its parent. -/
theorem C128_children (R : PMF Hashes) (m : Nat) (k : Fin m → XPrv) (i : Fin m → ChildNumber)
    (hd : ∀ a, (k a).attrs.depth.toNat < 255)
    (hR : UniformFamily R 64 (fun a H => I (specHash H) (k a).attrs.chainCode.1 (k a).privateKey.k (i a).n.toNat))
    (d : Fin m → SecretKey) (e : Fin m → ByteArr 32) :
    ((∀ a, d a ≠ (k a).toSecretKey) →
      chance R (fun H => ∀ a, ∃ c, (k a).deriveChild H (i a) = .ok c ∧ c.toSecretKey = d a ∧ c.attrs.chainCode = e a) =
        ((2 ^ 512 : ℝ≥0∞)⁻¹) ^ m) ∧
    ((∃ a, d a = (k a).toSecretKey) →
      chance R (fun H => ∀ a, ∃ c, (k a).deriveChild H (i a) = .ok c ∧ c.toSecretKey = d a ∧ c.attrs.chainCode = e a) = 0) := by
  constructor
  · intro hne
    exact family_chance hR _ _ (fun a => by simp [(e a).2]) (fun a H => child_iff H (k a) (i a) (hd a) (d a) (hne a) (e a))
  · rintro ⟨a, ha⟩
    unfold chance
    rw [PMF.toOuterMeasure_apply_eq_zero_iff]
    refine Set.disjoint_left.2 fun H _ hH => ?_
    obtain ⟨c, h1, h2, _⟩ := hH a
    refine ((C66_child_keys_differ H).1 (k a) c (i a) h1).1 ?_
    show c.privateKey.serialize = (k a).privateKey.serialize
    rw [show c.privateKey = (k a).privateKey from h2.trans ha]

/-- **C128** So the children of a key, all of them together with their chain codes, show nothing of it but that it is not
among them: any two private keys are equally likely to have given them.  This is about someone who cannot evaluate HMAC on
the inputs of these calls, since the probability is over all hash functions.  Whoever has the chain code and the public key of
the parent can do so for numbers that are not hardened, and finds the private key (C65). -/
theorem C128_parent_hidden (R : PMF Hashes) (m : Nat) (k k' : XPrv) (i : Fin m → ChildNumber)
    (hd : k.attrs.depth.toNat < 255) (hd' : k'.attrs.depth.toNat < 255)
    (hR : UniformFamily R 64 (fun a H => I (specHash H) k.attrs.chainCode.1 k.privateKey.k (i a).n.toNat))
    (hR' : UniformFamily R 64 (fun a H => I (specHash H) k'.attrs.chainCode.1 k'.privateKey.k (i a).n.toNat))
    (d : Fin m → SecretKey) (e : Fin m → ByteArr 32) (hne : ∀ a, d a ≠ k.toSecretKey ∧ d a ≠ k'.toSecretKey) :
    chance R (fun H => ∀ a, ∃ c, k.deriveChild H (i a) = .ok c ∧ c.toSecretKey = d a ∧ c.attrs.chainCode = e a) =
    chance R (fun H => ∀ a, ∃ c, k'.deriveChild H (i a) = .ok c ∧ c.toSecretKey = d a ∧ c.attrs.chainCode = e a) := by
  rw [(C128_children R m (fun _ => k) i (fun _ => hd) hR d e).1 fun a => (hne a).1,
    (C128_children R m (fun _ => k') i (fun _ => hd') hR' d e).1 fun a => (hne a).2]

/-- **C128** The same for public keys, which are points `Q a` of the curve, and numbers that are not hardened: all
combinations of other points and chain codes are equally likely. -/
theorem C128_public_children (R : PMF Hashes) (m : Nat) (k : Fin m → XPub) (Q : Fin m → Point)
    (hQ : ∀ a, HasCoords (Q a) (k a).publicKey.x (k a).publicKey.y) (i : Fin m → ChildNumber)
    (hi : ∀ a, (i a).n.toNat < 2 ^ 31) (hd : ∀ a, (k a).attrs.depth.toNat < 255)
    (hR : UniformFamily R 64 (fun a H => Ipub (specHash H) (k a).attrs.chainCode.1 (Q a) (i a).n.toNat))
    (D : Fin m → Secp.PublicKey) (hD : ∀ a, ∃ P, HasCoords P (D a).x (D a).y) (hne : ∀ a, D a ≠ (k a).toPublicKey)
    (e : Fin m → ByteArr 32) :
    chance R (fun H => ∀ a, ∃ c, (k a).deriveChild H (i a) = .ok c ∧ c.toPublicKey = D a ∧ c.attrs.chainCode = e a) =
      ((2 ^ 512 : ℝ≥0∞)⁻¹) ^ m := by
  have hs : ∀ a, ∃ s, Secp.PublicKey.fromSecretKey s = (k a).publicKey := fun a =>
    Secp.exists_secret (Secp.valid_of_rep (Secp.rep_coords.2 (hQ a)))
  have ht : ∀ a, ∃ s, Secp.PublicKey.fromSecretKey s = D a := fun a => by
    obtain ⟨P, hP⟩ := hD a
    exact Secp.exists_secret (Secp.valid_of_rep (Secp.rep_coords.2 hP))
  choose s hs using hs
  choose t ht using ht
  let K : Fin m → XPrv := fun a => ⟨s a, (k a).attrs⟩
  have hK : ∀ a, (K a).publicKey = k a := by
    intro a
    show (⟨PrivateKey.publicKey (s a), (k a).attrs⟩ : XPub) = k a
    rw [show PrivateKey.publicKey (s a) = (k a).publicKey from hs a]
  have hcoord : ∀ a, Q a = (s a).k • G := by
    intro a
    have h1 := Secp.fromSecretKey_rep (s a)
    rw [hs a] at h1
    exact (Secp.rep_coords.2 (hQ a)).unique h1
  have hI : ∀ a H, Ipub (specHash H) (k a).attrs.chainCode.1 (Q a) (i a).n.toNat =
      I (specHash H) (K a).attrs.chainCode.1 (K a).privateKey.k (i a).n.toNat := by
    intro a H
    unfold Ipub I data
    rw [if_neg (by have := hi a; omega), hcoord a]
  have hR' : UniformFamily R 64 (fun a H => I (specHash H) (K a).attrs.chainCode.1 (K a).privateKey.k (i a).n.toNat) := by
    have : (fun (a : Fin m) H => I (specHash H) (K a).attrs.chainCode.1 (K a).privateKey.k (i a).n.toNat) =
        (fun a H => Ipub (specHash H) (k a).attrs.chainCode.1 (Q a) (i a).n.toNat) := by
      funext a H
      exact (hI a H).symm
    rw [this]
    exact hR
  rw [← (C128_children R m K i hd hR' t e).1 fun a h => hne a (by
    rw [← ht a, show t a = s a from h, hs a]
    rfl)]
  refine chance_congr R fun H => forall_congr' fun a => ?_
  have hmap := (C31_public_matches_private H (K a)).1 (i a) (hi a)
  rw [hK a] at hmap
  rw [← hmap]
  constructor
  · rintro ⟨c, h1, h2, h3⟩
    cases hc : (K a).deriveChild H (i a) with
    | ok x =>
      rw [hc] at h1
      cases h1
      refine ⟨x, rfl, ?_, h3⟩
      exact Secp.fromSecretKey_inj (show PrivateKey.publicKey x.privateKey = _ from h2.trans (ht a).symm)
    | err x => rw [hc] at h1; cases h1
    | panic => rw [hc] at h1; cases h1
  · rintro ⟨c, h1, h2, h3⟩
    refine ⟨c.publicKey, by rw [h1]; rfl, ?_, h3⟩
    show PrivateKey.publicKey c.privateKey = D a
    rw [← ht a, ← h2]
    rfl

/-- **C128** Likewise the master keys of any number of seeds of accepted lengths: all combinations of private keys and chain
codes are equally likely. -/
theorem C128_masters (R : PMF Hashes) (m : Nat) (seed : Fin m → Bytes) (hs : ∀ a, (seed a).length ∈ [16, 32, 64, 128])
    (hR : UniformFamily R 64 (fun a H => master (specHash H) (seed a))) (d : Fin m → SecretKey) (e : Fin m → ByteArr 32) :
    chance R (fun H => ∀ a, ∃ c, XPrv.new H (seed a) = .ok c ∧ c.toSecretKey = d a ∧ c.attrs.chainCode = e a) =
      ((2 ^ 512 : ℝ≥0∞)⁻¹) ^ m := by
  refine family_chance hR _ (fun a => natBE 32 (d a).k ++ (e a).1) (fun a => by simp [(e a).2]) fun a H => ?_
  have hn256 : n < 2 ^ 256 := by decide
  have hdn : (d a).k < n := (d a).lt
  rw [← halves_iff (master_length ..) (Nat.lt_trans hdn hn256) (e a)]
  constructor
  · rintro ⟨c, h, h2, h3⟩
    obtain ⟨_, _, _, h4, h5, _⟩ := ((C36_master_key H (seed a)).2.2.1 c).1 h
    rw [← h2, ← h3]
    exact ⟨h4.symm, h5.symm⟩
  · rintro ⟨h1, h2⟩
    refine ⟨⟨d a, ⟨0, ⟨[0, 0, 0, 0], rfl⟩, ⟨0⟩, e a⟩⟩, ?_, rfl, rfl⟩
    exact ((C36_master_key H (seed a)).2.2.1 _).2 ⟨hs a, by rw [h1]; exact (d a).pos, by rw [h1]; exact hdn, h1.symm, h2.symm,
      rfl, rfl, rfl⟩

/-- **C128** A whole tree of keys.  Below the key `root` derive along `m` paths, each of which is one step longer than the
empty path or than another of them; `pk a` and `pc a` stand for the private key and chain code that the results `d` and `e`
give to the parent of `a`.  If HMAC gives uniform bytes, independent for these parents and numbers, then the result `d`, `e`
has probability `2^-512` for each path: all ways to give keys and chain codes to the places of the tree are equally likely. -/
theorem C128_tree (R : PMF Hashes) (root : XPrv) (m : Nat) (path : Fin m → DerivationPath) (i : Fin m → ChildNumber)
    (d pk : Fin m → SecretKey) (e pc : Fin m → ByteArr 32)
    (hpar : ∀ a, (path a = DerivationPath.default.push (i a) ∧ pk a = root.toSecretKey ∧ pc a = root.attrs.chainCode) ∨
      ∃ b, path a = (path b).push (i a) ∧ pk a = d b ∧ pc a = e b)
    (hdepth : ∀ a, root.attrs.depth.toNat + (path a).len ≤ 255)
    (hR : UniformFamily R 64 (fun a H => I (specHash H) (pc a).1 (pk a).k (i a).n.toNat))
    (hne : ∀ a, d a ≠ pk a) :
    chance R (fun H => ∀ a, ∃ c, root.deriveFromPath H (path a) = .ok c ∧ c.toSecretKey = d a ∧ c.attrs.chainCode = e a) =
      ((2 ^ 512 : ℝ≥0∞)⁻¹) ^ m := by
  have hlen : ∀ (p : DerivationPath) j, (p.push j).len = p.len + 1 := fun p j => by
    simp [DerivationPath.push, DerivationPath.len]
  -- one step below a key with the right secret and chain code
  have step : ∀ a H (K : XPrv), K.attrs.depth.toNat < 255 → K.toSecretKey = pk a → K.attrs.chainCode = pc a →
      ((∃ c, K.deriveChild H (i a) = .ok c ∧ c.toSecretKey = d a ∧ c.attrs.chainCode = e a) ↔
        I (specHash H) (pc a).1 (pk a).k (i a).n.toNat = natBE 32 (((d a).k + (n - (pk a).k)) % n) ++ (e a).1) := by
    intro a H K hd h1 h2
    have := child_iff H K (i a) hd (d a) (by rw [show K.privateKey = pk a from h1]; exact hne a) (e a)
    rw [show K.privateKey = pk a from h1, h2] at this
    exact this
  -- one step along a path
  have down : ∀ H (p : DerivationPath) j, root.deriveFromPath H (p.push j) =
      root.deriveFromPath H p >>= fun K => K.deriveChild H j := by
    intro H p j
    rw [show p.push j = p.extend (DerivationPath.default.push j).iter from rfl,
      ← (C30_path_composition H p (DerivationPath.default.push j)).1 root]
    congr 1
  have start : ∀ H, root.deriveFromPath H .default = .ok root := fun H =>
    ((C30_path_composition H .default .default).2.2.2.1 root).1
  have key : ∀ H, (∀ a, ∃ c, root.deriveFromPath H (path a) = .ok c ∧ c.toSecretKey = d a ∧ c.attrs.chainCode = e a) ↔
      ∀ a, I (specHash H) (pc a).1 (pk a).k (i a).n.toNat = natBE 32 (((d a).k + (n - (pk a).k)) % n) ++ (e a).1 := by
    intro H
    constructor
    · intro h a
      have ha := h a
      have hdp := hdepth a
      rcases hpar a with ⟨h1, h2, h3⟩ | ⟨b, h1, h2, h3⟩
      · rw [h1, hlen] at hdp
        rw [h1, down, start] at ha
        exact (step a H root (by omega) h2.symm h3.symm).1 ha
      · obtain ⟨K, hK, hk, hc⟩ := h b
        rw [h1, hlen] at hdp
        have hKd := ((C33_depth H).2.2.2.2.1 root K (path b) hK).1
        rw [h1, down, hK] at ha
        exact (step a H K (by omega) (hk.trans h2.symm) (hc.trans h3.symm)).1 ha
    · intro h
      have : ∀ N a, (path a).len = N →
          ∃ c, root.deriveFromPath H (path a) = .ok c ∧ c.toSecretKey = d a ∧ c.attrs.chainCode = e a := by
        intro N
        induction N using Nat.strongRecOn with
        | _ N ih =>
          intro a hN
          have hdp := hdepth a
          rcases hpar a with ⟨h1, h2, h3⟩ | ⟨b, h1, h2, h3⟩
          · rw [h1, hlen] at hdp
            rw [h1, down, start]
            exact (step a H root (by omega) h2.symm h3.symm).2 (h a)
          · obtain ⟨K, hK, hk, hc⟩ := ih (path b).len (by rw [← hN, h1, hlen]; omega) b rfl
            rw [h1, hlen] at hdp
            have hKd := ((C33_depth H).2.2.2.2.1 root K (path b) hK).1
            rw [h1, down, hK]
            exact (step a H K (by omega) (hk.trans h2.symm) (hc.trans h3.symm)).2 (h a)
      exact fun a => this _ a rfl
  rw [chance_congr R key]
  exact hR _ (fun a => by simp [(e a).2])

/-! ### such hash functions exist -/

/-- Any number of independent uniform strings. -/
theorem uniform_family (m L : Nat) : ∃ P : PMF (Fin m → ByteArr L), UniformFamily P L (fun a t => (t a).1) := by
  classical
  let i1 : Fintype UInt8 := Fintype.ofEquiv (Fin 256)
    ⟨fun i => UInt8.ofFin i, fun b => b.toFin, fun _ => rfl, fun _ => rfl⟩
  let i2 : Fintype (ByteArr L) := (inferInstance : Fintype (List.Vector UInt8 L))
  have hc : Fintype.card (ByteArr L) = 2 ^ (8 * L) := by
    show Fintype.card (List.Vector UInt8 L) = _
    rw [card_vector, Fintype.ofEquiv_card, Fintype.card_fin, pow_mul]
    norm_num
  have : Nonempty (ByteArr L) := ⟨⟨List.replicate L 0, by simp⟩⟩
  refine ⟨PMF.uniformOfFintype _, fun b hb => ?_⟩
  have : {t : Fin m → ByteArr L | ∀ a, (t a).1 = b a} = {fun a => ⟨b a, hb a⟩} := by
    ext t
    simp only [Set.mem_ofPred_eq, Set.mem_singleton_iff]
    exact ⟨fun h => funext fun a => Subtype.ext (h a), fun h a => by rw [h]⟩
  unfold chance
  rw [this, PMF.toOuterMeasure_apply_singleton, PMF.uniformOfFintype_apply, Fintype.card_fun, hc, Fintype.card_fin]
  push_cast
  rw [ENNReal.inv_pow]

/-- There are hash functions whose HMAC on the messages `msg` is uniform and independent. -/
theorem uniform_hmacs (key : Bytes) (hk : key.length ≤ 128) (m : Nat) (msg : Fin m → Bytes) (hm : Function.Injective msg)
    (hcap : m ≤ 256 ^ 64) : ∃ R : PMF Hashes, UniformFamily R 64 (fun a H => hmac (fun x => (H.sha512 x).1) key (msg a)) := by
  obtain ⟨H1, h1⟩ := hmac_table key hk m msg hm hcap
  obtain ⟨P, hP⟩ := uniform_family m 64
  refine ⟨P.map H1, fun b hb => ?_⟩
  rw [chance_map, ← hP b hb]
  refine chance_congr P fun t => forall_congr' fun a => ?_
  show hmac _ key (msg a) = _ ↔ _
  rw [h1]

-- all the hardened children of a key: any keys but its own, and any chain codes, with equal probability
example (k : XPrv) (hd : k.attrs.depth.toNat < 255) (d : Fin (2 ^ 31) → SecretKey) (hne : ∀ a, d a ≠ k.toSecretKey)
    (e : Fin (2 ^ 31) → ByteArr 32) : ∃ R : PMF Hashes,
    chance R (fun H => ∀ a, ∃ c, k.deriveChild H ⟨BitVec.ofNat 32 (2 ^ 31 + a.1)⟩ = .ok c ∧ c.toSecretKey = d a ∧
      c.attrs.chainCode = e a) = ((2 ^ 512 : ℝ≥0∞)⁻¹) ^ (2 ^ 31) := by
  have hinj : Function.Injective fun a : Fin (2 ^ 31) => data k.privateKey.k (BitVec.ofNat 32 (2 ^ 31 + a.1)).toNat := by
    intro a b hab
    have := ((C52_hmac_input_injective k k ⟨BitVec.ofNat 32 (2 ^ 31 + a.1)⟩ ⟨BitVec.ofNat 32 (2 ^ 31 + b.1)⟩).1 hab).1
    have := congrArg (fun c : ChildNumber => c.n.toNat) this
    simp only [BitVec.toNat_ofNat] at this
    have ha := a.2
    have hb := b.2
    rw [Nat.mod_eq_of_lt (by omega), Nat.mod_eq_of_lt (by omega)] at this
    exact Fin.ext (by omega)
  obtain ⟨R, hR⟩ := uniform_hmacs k.attrs.chainCode.1 (by rw [k.attrs.chainCode.2]; decide) (2 ^ 31) _ hinj (by norm_num)
  exact ⟨R, (C128_children R (2 ^ 31) (fun _ => k) (fun a => ⟨BitVec.ofNat 32 (2 ^ 31 + a.1)⟩) (fun _ => hd) hR d e).1 hne⟩

/-- The messages of different child numbers differ. -/
theorem data_inj (k : XPrv) {m : Nat} {i : Fin m → ChildNumber} (hi : Function.Injective i) :
    Function.Injective fun a => data k.privateKey.k (i a).n.toNat :=
  fun _ _ hab => hi ((C52_hmac_input_injective k k _ _).1 hab).1

-- any two keys with the same chain code are hidden behind any of their children
example (k k' : XPrv) (hk : k.privateKey ≠ k'.privateKey) (hc : k'.attrs.chainCode = k.attrs.chainCode)
    (hd : k.attrs.depth.toNat < 255) (hd' : k'.attrs.depth.toNat < 255) (m : Nat) (hm : m ≤ 2 ^ 32) (i : Fin m → ChildNumber)
    (hi : Function.Injective i) (d : Fin m → SecretKey) (e : Fin m → ByteArr 32)
    (hne : ∀ a, d a ≠ k.toSecretKey ∧ d a ≠ k'.toSecretKey) : ∃ R : PMF Hashes,
    chance R (fun H => ∀ a, ∃ c, k.deriveChild H (i a) = .ok c ∧ c.toSecretKey = d a ∧ c.attrs.chainCode = e a) =
    chance R (fun H => ∀ a, ∃ c, k'.deriveChild H (i a) = .ok c ∧ c.toSecretKey = d a ∧ c.attrs.chainCode = e a) := by
  obtain ⟨H1, h1⟩ := hmac_table k.attrs.chainCode.1 (by rw [k.attrs.chainCode.2]; decide) (m + m)
    (Fin.append (fun a => data k.privateKey.k (i a).n.toNat) (fun a => data k'.privateKey.k (i a).n.toNat))
    (Fin.append_injective_iff.2 ⟨data_inj k hi, data_inj k' hi, fun a b hab =>
      hk ((C52_hmac_input_injective k k' _ _).1 hab).2⟩) (Nat.le_trans (Nat.add_le_add hm hm) (by norm_num))
  obtain ⟨P, hP⟩ := uniform_family m 64
  have h2 : ∀ t a, I (specHash (H1 (Fin.append t t))) k.attrs.chainCode.1 k.privateKey.k (i a).n.toNat = (t a).1 := by
    intro t a
    have := h1 (Fin.append t t) (Fin.castAdd m a)
    rw [Fin.append_left, Fin.append_left] at this
    exact this
  have h3 : ∀ t a, I (specHash (H1 (Fin.append t t))) k'.attrs.chainCode.1 k'.privateKey.k (i a).n.toNat = (t a).1 := by
    intro t a
    have := h1 (Fin.append t t) (Fin.natAdd m a)
    rw [Fin.append_right, Fin.append_right] at this
    rw [hc]
    exact this
  refine ⟨P.map fun t => H1 (Fin.append t t), C128_parent_hidden _ m k k' i hd hd' (fun b hb => ?_) (fun b hb => ?_) d e hne⟩
  · rw [chance_map, ← hP b hb]
    exact chance_congr P fun t => forall_congr' fun a => by beta_reduce; rw [h2]
  · rw [chance_map, ← hP b hb]
    exact chance_congr P fun t => forall_congr' fun a => by beta_reduce; rw [h3]

-- any children of the public key of a private key
example (k : XPrv) (hd : k.attrs.depth.toNat < 255) (m : Nat) (hm : m ≤ 2 ^ 32) (i : Fin m → ChildNumber)
    (hi : Function.Injective i) (hn : ∀ a, (i a).n.toNat < 2 ^ 31) (D : Fin m → SecretKey) (hne : ∀ a, D a ≠ k.privateKey)
    (e : Fin m → ByteArr 32) : ∃ R : PMF Hashes,
    chance R (fun H => ∀ a, ∃ c, k.publicKey.deriveChild H (i a) = .ok c ∧
      c.toPublicKey = PrivateKey.publicKey (D a) ∧ c.attrs.chainCode = e a) = ((2 ^ 512 : ℝ≥0∞)⁻¹) ^ m := by
  obtain ⟨R, hR⟩ := uniform_hmacs k.attrs.chainCode.1 (by rw [k.attrs.chainCode.2]; decide) m _ (data_inj k hi)
    (Nat.le_trans hm (by norm_num))
  refine ⟨R, C128_public_children R m (fun _ => k.publicKey) (fun _ => k.privateKey.k • G)
    (fun _ => Secp.rep_coords.1 (Secp.fromSecretKey_rep k.privateKey)) i hn (fun _ => hd) ?_ _
    (fun a => ⟨_, Secp.rep_coords.1 (Secp.fromSecretKey_rep (D a))⟩) (fun a h => hne a (Secp.fromSecretKey_inj h)) e⟩
  have : (fun (a : Fin m) H => Ipub (specHash H) k.publicKey.attrs.chainCode.1 (k.privateKey.k • G) (i a).n.toNat) =
      fun a H => hmac (fun x => (H.sha512 x).1) k.attrs.chainCode.1 (data k.privateKey.k (i a).n.toNat) := by
    funext a H
    unfold Ipub data
    rw [if_neg (by have := hn a; omega)]
    rfl
  rw [this]
  exact hR

/-- The two pads of an HMAC key of 32 bytes. -/
theorem hmac_pads : ∃ p q : ByteArr 32 → Bytes, (∀ key, (p key).length = 128 ∧ (q key).length = 128) ∧
    Function.Injective q ∧ (∀ key key', p key ≠ q key') ∧ (∀ key key', p key = p key' → key = key') ∧
    ∀ (key : ByteArr 32) (h : List UInt8 → List UInt8) m, hmac h key.1 m = h (p key ++ h (q key ++ m)) := by
  have inj : ∀ (x : UInt8) (key key' : ByteArr 32), (List.range 128).map (fun i => key.1.getD i 0 ^^^ x) =
      (List.range 128).map (fun i => key'.1.getD i 0 ^^^ x) → key = key' := by
    intro x key key' h
    apply Subtype.ext
    apply List.ext_getElem
    · rw [key.2, key'.2]
    · intro j h1 h2
      have hj : j < 32 := by rw [← key.2]; exact h1
      have := congrArg (fun l => l[j]?) h
      simp only [List.getElem?_map, List.getElem?_range (show j < 128 by omega), Option.map_some, Option.some.injEq] at this
      have := congrArg (fun y => y ^^^ x) this
      simp only [UInt8.xor_assoc, UInt8.xor_self, UInt8.xor_zero] at this
      rw [List.getD_eq_getElem _ _ h1, List.getD_eq_getElem _ _ h2] at this
      exact this
  refine ⟨fun key => (List.range 128).map (fun i => key.1.getD i 0 ^^^ 0x5c),
    fun key => (List.range 128).map (fun i => key.1.getD i 0 ^^^ 0x36), fun key => by simp, fun a b => inj _ a b, ?_,
    fun a b => inj _ a b, ?_⟩
  · intro key key' e
    have := congrArg (fun l => l[127]?) e
    simp only [List.getElem?_map, List.getElem?_range (show 127 < 128 by decide), Option.map_some, Option.some.injEq] at this
    rw [List.getD_eq_default _ _ (by rw [key.2]; decide), List.getD_eq_default _ _ (by rw [key'.2]; decide)] at this
    exact absurd this (by decide)
  · intro key h m
    unfold hmac
    rw [if_neg (by rw [key.2]; decide)]

/-- There are hash functions whose HMAC under keys of 32 bytes is uniform and independent on any different pairs of key and
message. -/
theorem uniform_keyed (m : Nat) (key : Fin m → ByteArr 32) (msg : Fin m → Bytes)
    (hm : ∀ a b, key a = key b → msg a = msg b → a = b) (hcap : m ≤ 256 ^ 64) :
    ∃ R : PMF Hashes, UniformFamily R 64 (fun a H => hmac (fun x => (H.sha512 x).1) (key a).1 (msg a)) := by
  classical
  obtain ⟨p, q, hl, hq, hpq, hp, hh⟩ := hmac_pads
  have henc : ∃ enc : Fin m → ByteArr 64, Function.Injective enc := by
    refine ⟨fun a => ⟨natBE 64 a.1, natBE_length _ _⟩, fun a b hab => ?_⟩
    have := congrArg beNat (congrArg Subtype.val hab)
    simp only [beNat_natBE] at this
    have ha := a.2
    have hb := b.2
    rw [Nat.mod_eq_of_lt, Nat.mod_eq_of_lt] at this
    · exact Fin.ext this
    · exact Nat.lt_of_lt_of_le hb hcap
    · exact Nat.lt_of_lt_of_le ha hcap
  obtain ⟨enc, hinj⟩ := henc
  have H0 : Hashes := ⟨fun _ => ⟨List.replicate 32 0, by simp⟩, fun _ => ⟨List.replicate 64 0, by simp⟩,
    fun _ => ⟨List.replicate 20 0, by simp⟩⟩
  let H1 : (Fin m → ByteArr 64) → Hashes := fun t => { H0 with
    sha512 := fun x =>
      if h : ∃ a, x = q (key a) ++ msg a then enc h.choose
      else if h : ∃ a, x = p (key a) ++ (enc a).1 then t h.choose
      else ⟨List.replicate 64 0, by simp⟩ }
  have key1 : ∀ t a, ((H1 t).sha512 (q (key a) ++ msg a)) = enc a := by
    intro t a
    have h : ∃ b, q (key a) ++ msg a = q (key b) ++ msg b := ⟨a, rfl⟩
    show (if h : ∃ b, q (key a) ++ msg a = q (key b) ++ msg b then enc h.choose else _) = _
    rw [dif_pos h]
    obtain ⟨e1, e2⟩ := List.append_inj h.choose_spec ((hl _).2.trans (hl _).2.symm)
    rw [← hm a h.choose (hq e1) e2]
  have key2 : ∀ t a, ((H1 t).sha512 (p (key a) ++ (enc a).1)) = t a := by
    intro t a
    have h0 : ¬ ∃ b, p (key a) ++ (enc a).1 = q (key b) ++ msg b := by
      rintro ⟨b, h⟩
      exact hpq _ _ (List.append_inj h ((hl _).1.trans (hl _).2.symm)).1
    have h : ∃ b, p (key a) ++ (enc a).1 = p (key b) ++ (enc b).1 := ⟨a, rfl⟩
    show (if h : ∃ b, p (key a) ++ (enc a).1 = q (key b) ++ msg b then enc h.choose else
      if h : ∃ b, p (key a) ++ (enc a).1 = p (key b) ++ (enc b).1 then t h.choose else _) = _
    rw [dif_neg h0, dif_pos h]
    obtain ⟨_, e2⟩ := List.append_inj h.choose_spec ((hl _).1.trans (hl _).1.symm)
    rw [← hinj (Subtype.ext e2)]
  obtain ⟨P, hP⟩ := uniform_family m 64
  refine ⟨P.map H1, fun b hb => ?_⟩
  rw [chance_map, ← hP b hb]
  refine chance_congr P fun t => forall_congr' fun a => ?_
  show hmac _ (key a).1 (msg a) = _ ↔ _
  rw [hh, key1, key2]

-- m/44', m/44'/0' and m/44'/1' below any master key, with any keys and chain codes that differ
example (root : XPrv) (hd : root.attrs.depth = 0) (x y z : SecretKey) (a b c : ByteArr 32) (hx : x ≠ root.toSecretKey)
    (hy : y ≠ x) (hz : z ≠ x) : ∃ R : PMF Hashes,
    chance R (fun H =>
      ∀ j : Fin 3, ∃ k, root.deriveFromPath H (![⟨[⟨0x8000002c⟩]⟩, ⟨[⟨0x8000002c⟩, ⟨0x80000000⟩]⟩,
        ⟨[⟨0x8000002c⟩, ⟨0x80000001⟩]⟩] j) = .ok k ∧ k.toSecretKey = ![x, y, z] j ∧ k.attrs.chainCode = ![a, b, c] j) =
      ((2 ^ 512 : ℝ≥0∞)⁻¹) ^ 3 := by
  let i : Fin 3 → ChildNumber := ![⟨0x8000002c⟩, ⟨0x80000000⟩, ⟨0x80000001⟩]
  let pk : Fin 3 → SecretKey := ![root.toSecretKey, x, x]
  let pc : Fin 3 → ByteArr 32 := ![root.attrs.chainCode, a, a]
  obtain ⟨R, hR⟩ := uniform_keyed 3 pc (fun j => data (pk j).k (i j).n.toNat) (by
    intro u v h1 h2
    have h3 := ((C52_hmac_input_injective ⟨pk u, root.attrs⟩ ⟨pk v, root.attrs⟩ (i u) (i v)).1 h2).1
    revert h3
    fin_cases u <;> fin_cases v <;> simp [i]) (by norm_num)
  refine ⟨R, C128_tree R root 3 _ i ![x, y, z] pk ![a, b, c] pc ?_ ?_ hR ?_⟩
  · intro j
    fin_cases j
    · exact Or.inl ⟨rfl, rfl, rfl⟩
    · exact Or.inr ⟨0, rfl, rfl, rfl⟩
    · exact Or.inr ⟨0, rfl, rfl, rfl⟩
  · intro j
    rw [hd]
    fin_cases j <;> decide
  · intro j
    fin_cases j
    exacts [hx, hy, hz]

-- any number of different seeds
example (m : Nat) (hm : m ≤ 256 ^ 64) (seed : Fin m → Bytes) (hs : Function.Injective seed)
    (hl : ∀ a, (seed a).length ∈ [16, 32, 64, 128]) (d : Fin m → SecretKey) (e : Fin m → ByteArr 32) : ∃ R : PMF Hashes,
    chance R (fun H => ∀ a, ∃ c, XPrv.new H (seed a) = .ok c ∧ c.toSecretKey = d a ∧ c.attrs.chainCode = e a) =
      ((2 ^ 512 : ℝ≥0∞)⁻¹) ^ m := by
  obtain ⟨R, hR⟩ := uniform_hmacs ("Bitcoin seed".toList.map (fun c => UInt8.ofNat c.toNat)) (by decide) m seed hs hm
  exact ⟨R, C128_masters R m seed hl hR d e⟩

end Kms.Props
