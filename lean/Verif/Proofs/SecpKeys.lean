import Verif.Proofs.Secp256k1
import Verif.Proofs.ChildNumber
/-
Secret and public keys of Model/Secp256k1.lean.
-/
namespace Kms.Secp
open Kms.Spec.Secp (E F Point)

/-- The coordinates are reduced and satisfy the equation of the curve. -/
def PublicKey.Valid (P : PublicKey) : Prop := P.x < p ∧ P.y < p ∧ (P.y ^ 2) % p = (P.x ^ 3 + 7) % p

theorem mod_eq_iff (a b : Nat) : a % p = b % p ↔ (a : F) = b := by
  rw [ZMod.natCast_eq_natCast_iff, p_eq]; rfl

theorem PublicKey.valid_iff (P : PublicKey) :
    P.Valid ↔ P.x < p ∧ P.y < p ∧ (P.y : F) ^ 2 = (P.x : F) ^ 3 + 7 := by
  rw [Valid, mod_eq_iff]; push_cast; rfl

/-- The point of a valid public key. -/
def PublicKey.point (P : PublicKey) (h : P.Valid) : Point :=
  .some (P.x : F) (P.y : F) ((Spec.Secp.nonsingular_iff _ _).2 ((valid_iff P).1 h).2.2)

theorem PublicKey.point_rep (P : PublicKey) (h : P.Valid) : Rep P.pt (P.point h) := .aff h.1 h.2.1 _

theorem PublicKey.rep_iff {P : PublicKey} {Q : Point} : Rep P.pt Q ↔ ∃ h : P.Valid, P.point h = Q := by
  constructor
  · intro h
    obtain ⟨hx, hy, h', rfl⟩ := Rep_some.1 h
    exact ⟨(valid_iff P).2 ⟨hx, hy, (Spec.Secp.nonsingular_iff _ _).1 h'⟩, rfl⟩
  · rintro ⟨h, rfl⟩
    exact P.point_rep h

theorem PublicKey.point_inj {P R : PublicKey} (hP : P.Valid) (hR : R.Valid) (h : P.point hP = R.point hR) : P = R := by
  have h1 := P.point_rep hP
  rw [h] at h1
  have h2 := Rep.inj h1 (R.point_rep hR)
  cases P; cases R
  simp only [PublicKey.pt, Option.some.injEq, Prod.mk.injEq] at h2
  rw [h2.1, h2.2]

theorem rep_ne_zero {P : PublicKey} {Q : Point} (h : Rep P.pt Q) : Q ≠ 0 := by
  obtain ⟨_, _, h', rfl⟩ := Rep_some.1 h
  exact WeierstrassCurve.Affine.Point.some_ne_zero _

theorem ofPt_rep {P : Pt} {Q : Point} (h : Rep P Q) (h0 : Q ≠ 0) : Rep (PublicKey.ofPt P).pt Q := by
  match P with
  | none => exact absurd (Rep_none.1 h) h0
  | some (x, y) => exact h

theorem SecretKey.lt256 (s : SecretKey) : s.k < 2 ^ 256 := Nat.lt_trans s.lt n_lt

theorem SecretKey.smul_ne_zero (s : SecretKey) : s.k • Spec.Secp.G ≠ 0 := by
  rw [Ne, smul_G_eq_zero]
  intro h
  exact absurd (Nat.le_of_dvd s.pos h) (Nat.not_le.2 s.lt)

theorem fromSecretKey_rep (s : SecretKey) : Rep (PublicKey.fromSecretKey s).pt (s.k • Spec.Secp.G) :=
  ofPt_rep (mul_G_rep s.lt256) s.smul_ne_zero

theorem fromSecretKey_inj {s t : SecretKey} (h : PublicKey.fromSecretKey s = PublicKey.fromSecretKey t) : s = t := by
  have h1 := fromSecretKey_rep s
  rw [h] at h1
  have h2 := h1.unique (fromSecretKey_rep t)
  rw [smul_G_inj, Nat.mod_eq_of_lt s.lt, Nat.mod_eq_of_lt t.lt] at h2
  cases s; cases t; cases h2; rfl

theorem PublicKey.tweakAdd_rep {P : PublicKey} {Q : Point} (t : SecretKey) (h : Rep P.pt Q) :
    (∃ P', P.tweakAdd t = .ok P' ∧ Rep P'.pt (Q + t.k • Spec.Secp.G)) ∨
    (P.tweakAdd t = .err .tweakOutOfRange ∧ Q + t.k • Spec.Secp.G = 0) := by
  have h1 := add_rep h (mul_G_rep t.lt256)
  unfold PublicKey.tweakAdd
  match hm : add P.pt (mul 256 t.k G), h1 with
  | none, h1 => exact .inr ⟨rfl, Rep_none.1 h1⟩
  | some (x, y), h1 => exact .inl ⟨⟨x, y⟩, rfl, h1⟩

theorem SecretKey.tweakAdd_cases (s t : SecretKey) :
    (∃ u, s.tweakAdd t = .ok u ∧ u.k = (s.k + t.k) % n) ∨
    (s.tweakAdd t = .err .tweakOutOfRange ∧ (s.k + t.k) % n = 0) := by
  unfold SecretKey.tweakAdd
  by_cases h : 0 < (s.k + t.k) % n
  · exact .inl ⟨⟨_, h, Nat.mod_lt _ (Nat.lt_trans s.pos s.lt)⟩, by simp [h], rfl⟩
  · exact .inr ⟨by simp [h], by omega⟩

/-- The secret key and its public key agree under tweaking. -/
theorem tweak_commutes (s t : SecretKey) :
    (PublicKey.fromSecretKey s).tweakAdd t =
      (s.tweakAdd t).bind (fun u => .ok (PublicKey.fromSecretKey u)) := by
  have h0 := PublicKey.tweakAdd_rep t (fromSecretKey_rep s)
  rw [← add_nsmul] at h0
  rcases SecretKey.tweakAdd_cases s t with ⟨u, hu, hk⟩ | ⟨he, hz⟩
  · rw [hu]
    have hu' : u.k • Spec.Secp.G = (s.k + t.k) • Spec.Secp.G := by
      rw [smul_G_inj, hk, Nat.mod_mod]
    rcases h0 with ⟨P', h1, h2⟩ | ⟨_, h2⟩
    · rw [h1]
      show Res.ok P' = .ok _
      rw [← hu'] at h2
      have h3 := PublicKey.rep_iff.1 h2
      have h4 := PublicKey.rep_iff.1 (fromSecretKey_rep u)
      obtain ⟨v, hv⟩ := h3
      obtain ⟨w, hw⟩ := h4
      rw [PublicKey.point_inj v w (hv.trans hw.symm)]
    · rw [← hu'] at h2
      exact absurd h2 u.smul_ne_zero
  · rw [he]
    rcases h0 with ⟨P', h1, h2⟩ | ⟨h1, _⟩
    · exfalso
      refine rep_ne_zero h2 (smul_G_eq_zero.2 ?_)
      rw [← n_eq]
      exact Nat.dvd_of_mod_eq_zero hz
    · rw [h1]; rfl

/-- -7 is not a cube, so no point has second coordinate 0. -/
theorem y_ne_zero {x y : F} (h : y ^ 2 = x ^ 3 + 7) : y ≠ 0 := by
  rintro rfl
  have h1 : x ^ 3 = ((p - 7 : Nat) : F) := by
    rw [Nat.cast_sub (by decide), cast_p]
    push_cast
    linear_combination -h
  have hx : x ≠ 0 := by
    rintro rfl
    have h2 : ((p - 7 : Nat) : F) = 0 := by rw [← h1]; simp
    rw [cast_eq_zero (by decide)] at h2
    exact absurd h2 (by decide)
  have h2 : ((p - 7 : Nat) : F) ^ ((p - 1) / 3) = 1 := by
    rw [← h1, ← pow_mul]
    have : 3 * ((p - 1) / 3) = Spec.Secp.p - 1 := by decide
    rw [this]
    exact ZMod.pow_card_sub_one_eq_one hx
  rw [← powMod_cast _ _ (by decide)] at h2
  have h3 : ((powMod 256 (p - 7) ((p - 1) / 3) p : Nat) : F) = ((1 : Nat) : F) := by rw [h2]; simp
  rw [cast_inj (powMod_lt _ _ (by decide)) (by decide)] at h3
  exact absurd h3 (by decide +kernel)

theorem sqrt_sq {c : Nat} {y : F} (h : (c : F) = y ^ 2) :
    ((PublicKey.sqrtM c : Nat) : F) = y ∨ ((PublicKey.sqrtM c : Nat) : F) = -y := by
  rw [PublicKey.sqrtM, powMod_cast _ _ (by decide)]
  rw [← sq_eq_sq_iff_eq_or_eq_neg, h, ← pow_mul, ← pow_mul]
  have : 2 * ((p + 1) / 4 * 2) = (Spec.Secp.p - 1) + 2 := by decide
  rw [this, pow_add]
  by_cases hy : y = 0
  · subst hy; simp
  · rw [ZMod.pow_card_sub_one_eq_one hy, one_mul]

theorem sqrtM_lt (c : Nat) : PublicKey.sqrtM c < p := powMod_lt _ _ (by decide)

theorem cast_rhs (x : Nat) : ((addM (mulM (mulM x x) x) 7 : Nat) : F) = (x : F) ^ 3 + 7 := by
  rw [cast_addM, cast_mulM, cast_mulM]; push_cast; ring

theorem subM_zero {r : Nat} (h0 : 0 < r) (h : r < p) : subM 0 r = p - r := by
  rw [subM, Nat.zero_add, Nat.mod_eq_of_lt]; omega

theorem p_odd : p % 2 = 1 := by decide

theorem beNat_natBE32 {x : Nat} (h : x < p) : beNat (natBE 32 x) = x := by
  rw [beNat_natBE]
  exact Nat.mod_eq_of_lt (Nat.lt_of_lt_of_le h (by decide))

theorem rhs_lt (x : Nat) : PublicKey.rhs x < p := addM_lt _ _

theorem setXo_lt (x : Nat) (o : Bool) : PublicKey.setXo x o < p := by
  unfold PublicKey.setXo
  dsimp only
  split
  · exact sqrtM_lt _
  · exact subM_lt _ _

theorem setXo_eq {x y : Nat} (hy : y < p) (h : (y : F) ^ 2 = (x : F) ^ 3 + 7) :
    PublicKey.setXo x (y % 2 == 1) = y := by
  have hy1 : y ≠ 0 := fun e => y_ne_zero h (by rw [e]; simp)
  unfold PublicKey.setXo
  dsimp only
  rcases sqrt_sq (c := PublicKey.rhs x) (y := (y : F)) (by rw [PublicKey.rhs, cast_rhs, h]) with hr | hr
  · rw [cast_inj (sqrtM_lt _) hy] at hr
    rw [hr, beq_self_eq_true, if_pos rfl]
  · have : (-(y : F)) = ((p - y : Nat) : F) := by
      rw [Nat.cast_sub hy.le, cast_p]; ring
    rw [this, cast_inj (sqrtM_lt _) (by omega)] at hr
    have hp := p_odd
    rw [hr, if_neg, subM_zero (by omega) (by omega)]
    · omega
    · rw [beq_iff_eq, Bool.eq_iff_iff, beq_iff_eq, beq_iff_eq]; omega

theorem setXo_parity {x : Nat} {o : Bool} (h : (PublicKey.setXo x o : F) ^ 2 = (x : F) ^ 3 + 7) :
    (PublicKey.setXo x o % 2 == 1) = o := by
  have hy0 : PublicKey.setXo x o ≠ 0 := fun e => y_ne_zero h (by rw [e]; simp)
  have hrp := sqrtM_lt (PublicKey.rhs x)
  unfold PublicKey.setXo at hy0 ⊢
  dsimp only at hy0 ⊢
  generalize PublicKey.sqrtM (PublicKey.rhs x) = r at hrp hy0
  by_cases hd : ((r % 2 == 1) == o) = true
  · rw [if_pos hd]; exact eq_of_beq hd
  · rw [if_neg hd] at hy0 ⊢
    have hr0 : 0 < r := by
      rcases Nat.eq_zero_or_pos r with h | h
      · rw [h] at hy0
        exact absurd (by decide) hy0
      · exact h
    rw [subM_zero hr0 hrp]
    have hp := p_odd
    have h2 : ((p - r) % 2 == 1) = !(r % 2 == 1) := by
      rw [Bool.eq_iff_iff, Bool.not_eq_true', beq_iff_eq, beq_eq_false_iff_ne]; omega
    rw [h2]
    clear h2 hp hy0 hrp h
    generalize (r % 2 == 1) = b at hd
    cases b <;> cases o <;> simp_all

theorem sq_eq_rhs {x y : Nat} : mulM y y = PublicKey.rhs x ↔ (y : F) ^ 2 = (x : F) ^ 3 + 7 := by
  rw [← cast_inj (mulM_lt _ _) (rhs_lt _), cast_mulM, PublicKey.rhs, cast_rhs, pow_two]

theorem PublicKey.parse_serialize {P : PublicKey} (h : P.Valid) : parseCompressed P.serializeCompressed = .ok P := by
  obtain ⟨hx, hy, hc⟩ := (valid_iff P).1 h
  have h1 : (P.serializeCompressed).1.headD 0 = if P.y % 2 = 1 then 3 else 2 := rfl
  have h2 : beNat (P.serializeCompressed).1.tail = P.x := beNat_natBE32 hx
  unfold parseCompressed
  rw [h1, h2]
  have h3 : ((if P.y % 2 = 1 then (3 : UInt8) else 2) == 3) = (P.y % 2 == 1) := by
    by_cases h : P.y % 2 = 1 <;> simp [h]
  have h4 : ((if P.y % 2 = 1 then (3 : UInt8) else 2) == 2) = !(P.y % 2 == 1) := by
    by_cases h : P.y % 2 = 1 <;> simp [h]
  unfold parseParts
  dsimp only
  rw [h3, h4, setXo_eq hy hc, if_neg (by simp), if_neg (Nat.not_le.2 hx), if_pos (sq_eq_rhs.2 hc)]

theorem PublicKey.parse_cases (b : ByteArr 33) :
    (∃ P, parseCompressed b = .ok P ∧ P.Valid ∧ P.serializeCompressed = b) ∨
    parseCompressed b = .err .invalidPublicKey := by
  obtain ⟨l, hl⟩ := b
  match l, hl with
  | t :: l, hl =>
    have hl' : l.length = 32 := by simpa using hl
    show (∃ P, parseParts t (beNat l) = _ ∧ _) ∨ parseParts t (beNat l) = _
    unfold parseParts
    dsimp only
    by_cases htag : (!(t == 2 || t == 3)) = true
    · right; rw [if_pos htag]
    rw [if_neg htag]
    by_cases hx : p ≤ beNat l
    · right; rw [if_pos hx]
    rw [if_neg hx]
    by_cases hsq : mulM (setXo (beNat l) (t == 3)) (setXo (beNat l) (t == 3)) = rhs (beNat l)
    swap
    · right; rw [if_neg hsq]
    left
    rw [if_pos hsq]
    have hc := sq_eq_rhs.1 hsq
    have hx' := Nat.not_le.1 hx
    have hlt := setXo_lt (beNat l) (t == 3)
    have hpar := setXo_parity hc
    have hbe : natBE 32 (beNat l) = l := by
      have h := natBE_beNat l
      rwa [hl'] at h
    clear hsq hx
    generalize setXo (beNat l) (t == 3) = y at *
    generalize beNat l = x at *
    refine ⟨⟨x, y⟩, rfl, (valid_iff _).2 ⟨hx', hlt, hc⟩, Subtype.ext ?_⟩
    show (if y % 2 = 1 then (3 : UInt8) else 2) :: natBE 32 x = _
    rw [hbe]
    congr 1
    by_cases h3 : t = 3
    · subst h3
      rw [if_pos]
      simpa using hpar
    · rw [if_neg]
      · simp [h3] at htag; exact htag.symm
      · intro h; rw [h] at hpar; simp [h3] at hpar

theorem SecretKey.parse_ok {b : ByteArr 32} (h : 0 < beNat b.1 ∧ beNat b.1 < n) :
    SecretKey.parse b = .ok ⟨beNat b.1, h.1, h.2⟩ := by
  unfold SecretKey.parse; exact dif_pos h

theorem SecretKey.parse_err {b : ByteArr 32} (h : ¬ (0 < beNat b.1 ∧ beNat b.1 < n)) :
    SecretKey.parse b = .err .invalidSecretKey := by
  unfold SecretKey.parse; exact dif_neg h

theorem SecretKey.parse_cases (b : ByteArr 32) :
    (∃ s, SecretKey.parse b = .ok s ∧ s.serialize = b ∧ s.k = beNat b.1) ∨
    (SecretKey.parse b = .err .invalidSecretKey ∧ (beNat b.1 = 0 ∨ n ≤ beNat b.1)) := by
  by_cases h : 0 < beNat b.1 ∧ beNat b.1 < n
  · left
    refine ⟨_, parse_ok h, Subtype.ext ?_, rfl⟩
    have h := natBE_beNat b.1
    rw [b.2] at h
    exact h
  · right
    exact ⟨parse_err h, by omega⟩

theorem SecretKey.parse_serialize (s : SecretKey) : SecretKey.parse s.serialize = .ok s := by
  have h : beNat s.serialize.1 = s.k := by
    show beNat (natBE 32 s.k) = s.k
    rw [beNat_natBE]
    exact Nat.mod_eq_of_lt (Nat.lt_of_lt_of_le s.lt (by decide))
  rw [SecretKey.parse_ok (by rw [h]; exact ⟨s.pos, s.lt⟩)]
  cases s
  simp only [Res.ok.injEq, SecretKey.mk.injEq]
  exact h

theorem SecretKey.serialize_inj {s t : SecretKey} (h : s.serialize = t.serialize) : s = t := by
  have h1 := s.parse_serialize
  rw [h, t.parse_serialize] at h1
  injection h1 with h1; exact h1.symm

theorem PublicKey.serialize_inj {P R : PublicKey} (hP : P.Valid) (hR : R.Valid)
    (h : P.serializeCompressed = R.serializeCompressed) : P = R := by
  have h1 := parse_serialize hP
  rw [h, parse_serialize hR] at h1
  injection h1 with h1; exact h1.symm

end Kms.Secp
