import Verif.Spec.Collisions
import Verif.Props.Unwind
import Verif.Props.ChanceKeys
/-
C103: extended keys at different places coincide only if SHA-512 collides on half of its digest.
-/
namespace Kms.Props
open Kms.Bip32 Kms.Spec Kms.Spec.Bip32
open Kms.Spec.Secp (Point G n HasCoords)
open Kms.Secp (SecretKey)

theorem pads_inj {B : Nat} {a b : Bytes} {x : UInt8} (ha : a.length ≤ B) (hab : a.length = b.length)
    (h : (List.range B).map (fun i => a.getD i 0 ^^^ x) = (List.range B).map (fun i => b.getD i 0 ^^^ x)) : a = b := by
  apply List.ext_getElem hab
  intro i h1 h2
  have h3 := congrArg (fun l : List UInt8 => l[i]?) h
  simp only [List.getElem?_map, List.getElem?_range (show i < B by omega), Option.map_some, Option.some.injEq] at h3
  rw [List.getD_eq_getElem _ _ h1, List.getD_eq_getElem _ _ h2] at h3
  have h4 := congrArg (· ^^^ x) h3
  simpa [UInt8.xor_assoc] using h4

theorem _root_.Kms.Spec.Collides.mono {β : Type} {f : Bytes → β} {l l' m m' : List Bytes} (h : Collides f l l') (hl : l ⊆ m) (hl' : l' ⊆ m') :
    Collides f m m' := by
  obtain ⟨a, ha, b, hb, hne, e⟩ := h
  exact ⟨a, hl ha, b, hl' hb, hne, e⟩

/-- If a part of the HMAC of two messages is the same, the messages are equal, and so are keys of the same length, or that
part is the same for two different inputs of the hash function. -/
theorem hmac_part {β : Type} (h : Bytes → Bytes) (f : Bytes → β) {k k' m m' : Bytes} (hk : k.length ≤ 128)
    (hk' : k'.length ≤ 128) (e : f (hmac h k m) = f (hmac h k' m')) :
    (m = m' ∧ (k.length = k'.length → k = k')) ∨
      Collides (fun b => f (h b)) (hmacHashes 128 h k m) (hmacHashes 128 h k' m') := by
  by_cases hc : Collides (fun b => f (h b)) (hmacHashes 128 h k m) (hmacHashes 128 h k' m')
  · exact .inr hc
  left
  have inj : ∀ a b, a ∈ hmacHashes 128 h k m → b ∈ hmacHashes 128 h k' m' → f (h a) = f (h b) → a = b := by
    intro a b ha hb hab
    by_contra hne
    exact hc ⟨a, ha, b, hb, hne, hab⟩
  unfold hmac at e
  unfold hmacHashes at inj
  simp only [gt_iff_lt, Nat.not_lt.2 hk, Nat.not_lt.2 hk', if_false] at e inj
  have e1 := inj _ _ (by simp) (by simp) e
  have e2 := List.append_inj e1 (by simp)
  have e3 := inj _ _ (by simp) (by simp) (congrArg f e2.2)
  have e4 := List.append_inj e3 (by simp)
  exact ⟨e4.2, fun hl => pads_inj hk hl e4.1⟩

/-- HMAC depends on the digests of these inputs only. -/
theorem hmac_agree {h h' : Bytes → Bytes} {k m : Bytes} (e : ∀ b ∈ hmacHashes 128 h k m, h' b = h b) :
    hmac h' k m = hmac h k m := by
  unfold hmac
  unfold hmacHashes at e
  by_cases hk : k.length > 128
  · simp only [hk, if_true] at e ⊢
    rw [e k (by simp), e (_ ++ m) (by simp), e _ (by simp)]
  · simp only [hk, if_false] at e ⊢
    rw [e (_ ++ m) (by simp), e _ (by simp)]

theorem newFromPath_nil (H : Hashes) (seed : Bytes) : XPrv.newFromPath H seed ⟨[]⟩ = XPrv.new H seed := rfl

theorem newFromPath_concat (H : Hashes) (seed : Bytes) (l : List ChildNumber) (i : ChildNumber) :
    XPrv.newFromPath H seed ⟨l ++ [i]⟩ = (XPrv.newFromPath H seed ⟨l⟩ >>= fun k => k.deriveChild H i) := by
  unfold XPrv.newFromPath DerivationPath.iter
  simp only [List.foldl_append, List.foldl_cons, List.foldl_nil]

theorem bind_ok {ε α β : Type} {r : Res ε α} {f : α → Res ε β} {b : β} (h : (r >>= f) = .ok b) :
    ∃ a, r = .ok a ∧ f a = .ok b := by
  cases r with
  | ok a => exact ⟨a, rfl, h⟩
  | err e => cases h
  | panic => cases h

/-- The chain code of a master key is the right half of an HMAC with a message of 16, 32, 64 or 128 bytes. -/
theorem chain_of_seed {H : Hashes} {seed : Bytes} {x : XPrv} (h : XPrv.new H seed = .ok x) :
    seed.length ∈ [16, 32, 64, 128] ∧ x.attrs.chainCode.1 = (master (specHash H) seed).drop 32 := by
  obtain ⟨h1, _, _, _, h2, _⟩ := ((C36_master_key H seed).2.2.1 x).1 h
  exact ⟨h1, h2⟩

theorem chain_of_child {H : Hashes} {k c : XPrv} {i : ChildNumber} (h : k.deriveChild H i = .ok c) :
    c.attrs.chainCode.1 = (hmac (specHash H).sha512 k.attrs.chainCode.1 (data k.privateKey.k i.n.toNat)).drop 32 :=
  ((C34_child_key H k c i).1 h).2.2.2.2.2.1

/-- What is hashed with SHA-512 on the way from a seed along a path: by the HMAC for the master key, and by the HMAC of
each step whose parent key exists. -/
def pathHashes (H : Hashes) (seed : Bytes) (path : List ChildNumber) : List Bytes :=
  hmacHashes 128 (specHash H).sha512 ("Bitcoin seed".toList.map (fun c => UInt8.ofNat c.toNat)) seed ++
  (List.range path.length).flatMap fun j =>
    match XPrv.newFromPath H seed ⟨path.take j⟩, path[j]? with
    | .ok x, some i => hmacHashes 128 (specHash H).sha512 x.attrs.chainCode.1 (data x.privateKey.k i.n.toNat)
    | _, _ => []

theorem pathHashes_concat (H : Hashes) (seed : Bytes) (l : List ChildNumber) (i : ChildNumber) {k : XPrv}
    (h : XPrv.newFromPath H seed ⟨l⟩ = .ok k) :
    pathHashes H seed (l ++ [i]) = pathHashes H seed l ++
      hmacHashes 128 (specHash H).sha512 k.attrs.chainCode.1 (data k.privateKey.k i.n.toNat) := by
  unfold pathHashes
  rw [List.length_append, List.length_singleton, List.range_succ, List.flatMap_append, ← List.append_assoc]
  congr 1
  · congr 1
    apply List.flatMap_congr
    intro j hj
    rw [List.mem_range] at hj
    rw [List.take_append_of_le_length (by omega), List.getElem?_append_left hj]
  · simp [h]

theorem master_mem_pathHashes (H : Hashes) (seed : Bytes) (l : List ChildNumber) :
    hmacHashes 128 (specHash H).sha512 ("Bitcoin seed".toList.map (fun c => UInt8.ofNat c.toNat)) seed ⊆
      pathHashes H seed l := by
  intro b hb
  exact List.mem_append_left _ hb

/-- **C103** If two seeds and paths lead to extended private keys with the same chain code, in particular to the same
extended private key, then they are the same seed and the same path, or two different inputs that SHA-512 is given on the
way have digests with the same last 32 bytes. -/
theorem C103_paths_separate (H : Hashes) (seed seed' : Bytes) (path path' : DerivationPath) (x x' : XPrv)
    (h : XPrv.newFromPath H seed path = .ok x) (h' : XPrv.newFromPath H seed' path' = .ok x')
    (e : x.attrs.chainCode = x'.attrs.chainCode) :
    (seed = seed' ∧ path = path') ∨
      Collides (fun b => (H.sha512 b).1.drop 32) (pathHashes H seed path.iter) (pathHashes H seed' path'.iter) := by
  have part : ∀ {k k' m m' : Bytes}, k.length ≤ 128 → k'.length ≤ 128 →
      (hmac (specHash H).sha512 k m).drop 32 = (hmac (specHash H).sha512 k' m').drop 32 →
      (m = m' ∧ (k.length = k'.length → k = k')) ∨ Collides (fun b => (H.sha512 b).1.drop 32)
        (hmacHashes 128 (specHash H).sha512 k m) (hmacHashes 128 (specHash H).sha512 k' m') := fun h1 h2 h3 =>
    hmac_part _ (List.drop 32) h1 h2 h3
  have c32 : ∀ k : XPrv, k.attrs.chainCode.1.length ≤ 128 := fun k => by rw [k.attrs.chainCode.2]; decide
  have mlen : ("Bitcoin seed".toList.map (fun c => UInt8.ofNat c.toNat)).length ≤ 128 := by decide
  obtain ⟨l⟩ := path
  obtain ⟨l'⟩ := path'
  have key : (seed = seed' ∧ l = l') ∨
      Collides (fun b => (H.sha512 b).1.drop 32) (pathHashes H seed l) (pathHashes H seed' l') := by
    induction l using List.reverseRecOn generalizing l' x x' with
    | nil =>
      obtain ⟨s1, s2⟩ := chain_of_seed h
      rcases List.eq_nil_or_concat' l' with rfl | ⟨l', i', rfl⟩
      · obtain ⟨s1', s2'⟩ := chain_of_seed h'
        rw [e, s2'] at s2
        rcases part mlen mlen s2.symm with hp | hp
        · exact .inl ⟨hp.1, rfl⟩
        · exact .inr (hp.mono (master_mem_pathHashes ..) (master_mem_pathHashes ..))
      · rw [newFromPath_concat] at h'
        obtain ⟨k', hk0', hk'⟩ := bind_ok h'
        have s2' := chain_of_child hk'
        rw [e, s2'] at s2
        rcases part mlen (c32 k') s2.symm with hp | hp
        · rw [hp.1, (C52_hmac_input_injective k' k' i' i').2.1] at s1
          exact absurd s1 (by decide)
        · rw [pathHashes_concat H seed' l' i' hk0']
          exact .inr (hp.mono (master_mem_pathHashes ..) (List.subset_append_right _ _))
    | append_singleton l i ih =>
      rw [newFromPath_concat] at h
      obtain ⟨k, hk0, hk⟩ := bind_ok h
      have s2 := chain_of_child hk
      rw [pathHashes_concat H seed l i hk0]
      rcases List.eq_nil_or_concat' l' with rfl | ⟨l', i', rfl⟩
      · obtain ⟨s1', s2'⟩ := chain_of_seed h'
        rw [e, s2'] at s2
        rcases part (c32 k) mlen s2.symm with hp | hp
        · rw [← hp.1, (C52_hmac_input_injective k k i i).2.1] at s1'
          exact absurd s1' (by decide)
        · exact .inr (hp.mono (List.subset_append_right _ _) (master_mem_pathHashes ..))
      · rw [newFromPath_concat] at h'
        obtain ⟨k', hk0', hk'⟩ := bind_ok h'
        have s2' := chain_of_child hk'
        rw [e, s2'] at s2
        rw [pathHashes_concat H seed' l' i' hk0']
        rcases part (c32 k) (c32 k') s2.symm with ⟨p1, p2⟩ | hp
        · have p3 := p2 (by rw [k.attrs.chainCode.2, k'.attrs.chainCode.2])
          obtain ⟨i1, i2⟩ := (C52_hmac_input_injective k k' i i').1 p1
          rcases ih k k' (Subtype.ext p3) hk0 l' hk0' with ⟨q1, q2⟩ | hp
          · exact .inl ⟨q1, by rw [q2, i1]⟩
          · exact .inr (hp.mono (List.subset_append_left _ _) (List.subset_append_left _ _))
        · exact .inr (hp.mono (List.subset_append_right _ _) (List.subset_append_right _ _))
  rcases key with ⟨k1, k2⟩ | k1
  · exact .inl ⟨k1, by rw [k2]⟩
  · exact .inr k1

/-- **C103** The list of inputs in `C103_paths_separate` is complete: the result depends on no other digest of SHA-512. -/
theorem C103_inputs_suffice (H : Hashes) (seed : Bytes) (path : DerivationPath) (f : Bytes → ByteArr 64)
    (hf : ∀ b ∈ pathHashes H seed path.iter, f b = H.sha512 b) :
    XPrv.newFromPath { H with sha512 := f } seed path = XPrv.newFromPath H seed path := by
  have hm : ∀ k m, (∀ b ∈ hmacHashes 128 (specHash H).sha512 k m, f b = H.sha512 b) →
      Hashes.hmacSha512 { H with sha512 := f } k m = H.hmacSha512 k m := by
    intro k m h
    apply Subtype.ext
    rw [hmacSha512_spec, hmacSha512_spec]
    exact hmac_agree fun b hb => congrArg Subtype.val (h b hb)
  obtain ⟨l⟩ := path
  replace hf : ∀ b ∈ pathHashes H seed l, f b = H.sha512 b := hf
  induction l using List.reverseRecOn with
  | nil =>
    rw [newFromPath_nil, newFromPath_nil]
    unfold XPrv.new
    have hd : BIP39_DOMAIN_SEPARATOR = "Bitcoin seed".toList.map (fun c => UInt8.ofNat c.toNat) := by decide
    rw [hd, hm _ _ fun b hb => hf b (master_mem_pathHashes H seed [] hb)]
  | append_singleton l i ih =>
    rw [newFromPath_concat, newFromPath_concat]
    have hsub : ∀ b ∈ pathHashes H seed l, f b = H.sha512 b := by
      intro b hb
      apply hf
      unfold pathHashes at hb ⊢
      rw [List.mem_append] at hb ⊢
      refine hb.imp_right fun hb => ?_
      rw [List.mem_flatMap] at hb ⊢
      obtain ⟨j, hj, hb⟩ := hb
      rw [List.mem_range] at hj
      refine ⟨j, by simp; omega, ?_⟩
      rw [List.take_append_of_le_length (by omega), List.getElem?_append_left hj]
      exact hb
    rw [ih hsub]
    cases hk : XPrv.newFromPath H seed ⟨l⟩ with
    | err e => rfl
    | panic => rfl
    | ok k =>
      rw [pathHashes_concat H seed l i hk] at hf
      simp only [Res.ok_bind]
      unfold XPrv.deriveChild
      rw [hm _ _ fun b hb => hf b (List.mem_append_right _ (by rw [XPrv.hmacInput_eq] at hb; exact hb))]
      rfl

-- three HMACs, each of which hashes two inputs
example : (pathHashes (constHash 2) (List.replicate 16 0) [⟨1⟩, ⟨0x80000000⟩]).length = 6 := by decide +kernel

-- a constant SHA-512 collides, and leads along different paths to the same chain code
example : ∃ x x', XPrv.newFromPath (constHash 2) (List.replicate 16 0) ⟨[⟨1⟩]⟩ = .ok x ∧
    XPrv.newFromPath (constHash 2) (List.replicate 64 7) ⟨[⟨0x80000000⟩, ⟨4⟩]⟩ = .ok x' ∧ x.attrs.chainCode = x'.attrs.chainCode := by
  have h : (match XPrv.newFromPath (constHash 2) (List.replicate 16 0) ⟨[⟨1⟩]⟩,
      XPrv.newFromPath (constHash 2) (List.replicate 64 7) ⟨[⟨0x80000000⟩, ⟨4⟩]⟩ with
      | .ok x, .ok x' => decide (x.attrs.chainCode = x'.attrs.chainCode)
      | _, _ => false) = true := by decide +kernel
  revert h
  generalize XPrv.newFromPath (constHash 2) (List.replicate 16 0) ⟨[⟨1⟩]⟩ = r
  generalize XPrv.newFromPath (constHash 2) (List.replicate 64 7) ⟨[⟨0x80000000⟩, ⟨4⟩]⟩ = r'
  intro h
  cases r <;> cases r' <;> simp only [reduceCtorEq, decide_eq_true_eq] at h
  exact ⟨_, _, rfl, rfl, h⟩

/-- **C103** If two different numbers give children of a key with the same private key, or of a public key with the same
public key, then two different inputs that SHA-512 is given for them have digests with the same first 32 bytes. -/
theorem C103_siblings_separate (H : Hashes) (i j : ChildNumber) (hij : i ≠ j) :
    (∀ k c d : XPrv, k.deriveChild H i = .ok c → k.deriveChild H j = .ok d → c.privateKey = d.privateKey →
      Collides (fun b => (H.sha512 b).1.take 32)
        (hmacHashes 128 (specHash H).sha512 k.attrs.chainCode.1 (data k.privateKey.k i.n.toNat))
        (hmacHashes 128 (specHash H).sha512 k.attrs.chainCode.1 (data k.privateKey.k j.n.toNat))) ∧
    (∀ k c d : XPub, ∀ Q, HasCoords Q k.publicKey.x k.publicKey.y → k.deriveChild H i = .ok c → k.deriveChild H j = .ok d →
      c.publicKey = d.publicKey → Collides (fun b => (H.sha512 b).1.take 32)
        (hmacHashes 128 (specHash H).sha512 k.attrs.chainCode.1 (serP Q ++ ser32 i.n.toNat))
        (hmacHashes 128 (specHash H).sha512 k.attrs.chainCode.1 (serP Q ++ ser32 j.n.toNat))) := by
  have priv : ∀ k c d : XPrv, k.deriveChild H i = .ok c → k.deriveChild H j = .ok d → c.privateKey = d.privateKey →
      Collides (fun b => (H.sha512 b).1.take 32)
        (hmacHashes 128 (specHash H).sha512 k.attrs.chainCode.1 (data k.privateKey.k i.n.toNat))
        (hmacHashes 128 (specHash H).sha512 k.attrs.chainCode.1 (data k.privateKey.k j.n.toNat)) := by
    intro k c d hc hd e
    have e1 := ((C66_child_keys_differ H).2.2 k c d i j hc hd).1.1 (by rw [XPrv.toBytes, XPrv.toBytes, e])
    unfold IL parse256 at e1
    rw [bytesVal_eq, bytesVal_eq] at e1
    have l64 : ∀ i : ChildNumber, ((I (specHash H) k.attrs.chainCode.1 k.privateKey.k i.n.toNat).take 32).length = 32 := by
      intro i
      rw [List.length_take]
      have : (I (specHash H) k.attrs.chainCode.1 k.privateKey.k i.n.toNat).length = 64 := (H.sha512 _).2
      rw [this]
      rfl
    have e2 := natBE_beNat ((I (specHash H) k.attrs.chainCode.1 k.privateKey.k i.n.toNat).take 32)
    have e3 := natBE_beNat ((I (specHash H) k.attrs.chainCode.1 k.privateKey.k j.n.toNat).take 32)
    rw [l64, e1] at e2
    rw [l64] at e3
    have hk : k.attrs.chainCode.1.length ≤ 128 := by rw [k.attrs.chainCode.2]; decide
    rcases hmac_part _ (List.take 32) hk hk (e2.symm.trans e3) with h | h
    · exact absurd ((C52_hmac_input_injective k k i j).1 h.1).1 hij
    · exact h
  refine ⟨priv, ?_⟩
  rintro k c d Q hQ hc hd e
  obtain ⟨s, hs⟩ := Secp.exists_secret (Secp.valid_of_rep (Secp.rep_coords.2 hQ))
  let K : XPrv := ⟨s, k.attrs⟩
  have hK : K.publicKey = k := by
    show (⟨PrivateKey.publicKey s, k.attrs⟩ : XPub) = k
    rw [show PrivateKey.publicKey s = k.publicKey from hs]
  have hi := ((C57_public_child_key H k c Q hQ i).1 hc).1
  have hj := ((C57_public_child_key H k d Q hQ j).1 hd).1
  rw [← hK, ← public_derive_child H K i hi] at hc
  rw [← hK, ← public_derive_child H K j hj] at hd
  cases hc' : K.deriveChild H i <;> rw [hc'] at hc <;> simp only [Res.map_ok, Res.map_err, Res.map_panic, reduceCtorEq, Res.ok.injEq] at hc
  cases hd' : K.deriveChild H j <;> rw [hd'] at hd <;> simp only [Res.map_ok, Res.map_err, Res.map_panic, reduceCtorEq, Res.ok.injEq] at hd
  subst hc hd
  have := priv K _ _ hc' hd' (Secp.fromSecretKey_inj e)
  have hQG : K.privateKey.k • G = Q := coords_point (by have := publicKey_coords K; rwa [hK] at this) hQ
  unfold data at this
  rw [if_neg (by omega), if_neg (by omega), hQG] at this
  exact this

-- two children of the key 1 with the same private key 3, for a constant SHA-512
example : (exKey.deriveChild (constHash 2) ⟨0⟩).map (·.privateKey.k) = .ok 3 ∧
    (exKey.deriveChild (constHash 2) ⟨1⟩).map (·.privateKey.k) = .ok 3 ∧
    (exKey.publicKey.deriveChild (constHash 2) ⟨0⟩).map (·.publicKey) =
      (exKey.publicKey.deriveChild (constHash 2) ⟨1⟩).map (·.publicKey) := by
  decide +kernel

end Kms.Props
