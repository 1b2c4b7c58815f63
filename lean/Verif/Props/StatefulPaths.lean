import Verif.Props.StatefulKeys
/-
C110, continued: the sequence of calls along a whole path, for private and for public keys.
-/
namespace Kms.Props
open Kms.Bip32 Kms.Spec Kms.Spec.Bip32

/-- The methods called for one step from a private key. -/
def privateStep (i : ChildNumber) : List KeyMethod :=
  if 2 ^ 31 ≤ i.n.toNat then [.toBytes, .deriveChild, .publicKey, .fingerprint]
  else [.publicKey, .pubToBytes, .deriveChild, .publicKey, .fingerprint]

/-- The methods called for one step from a public key; none for a hardened one. -/
def publicStep (i : ChildNumber) : List KeyMethod :=
  if 2 ^ 31 ≤ i.n.toNat then [] else [.pubToBytes, .pubDeriveChild, .fingerprint]

variable {σ : Type} {K : StatefulKeys σ}

/-- A beginning of a list that contains its last element, which occurs only there, is the list. -/
theorem prefix_full {α : Type} {l m : List α} {x : α} (h : l <+: m ++ [x]) (hx : x ∈ l) (hm : x ∉ m) : l = m ++ [x] := by
  obtain ⟨t, ht⟩ := h
  rcases List.eq_nil_or_concat t with rfl | ⟨t', y, rfl⟩
  · simpa using ht
  · rw [List.concat_eq_append, ← List.append_assoc] at ht
    have := (List.append_inj' ht rfl).1
    exact absurd (by rw [← this]; exact List.mem_append_left _ hx) hm

theorem private_child_methods {H : Hashes} {k : SPrv K} {i : ChildNumber} {s s' : σ} {r : Res Error (SPrv K)}
    {log : List (KeyEvent K.SK K.PK)} (h : k.deriveChild H i s = (r, s', log)) :
    log.map method <+: privateStep i ∧ ((∃ c, r = .ok c) → log.map method = privateStep i) := by
  obtain ⟨h1, h2⟩ := C110_private_child H k i s
  have hb := k.attrs.depth.toNat_lt
  by_cases hd : k.attrs.depth.toNat = 255
  · rw [h1 hd] at h
    cases h
    simp
  · obtain ⟨hp, _, _, hr⟩ := h2 (by omega) r s' log h
    refine ⟨hp, ?_⟩
    rintro ⟨c, rfl⟩
    rcases hr with ⟨before, last, _, _, hne, hl⟩ | ⟨c', pk, t, data, _, _, _, _, _, hf, _⟩
    · rw [← hl] at hne
      simp at hne
    · have hm : KeyMethod.fingerprint ∈ log.map method := List.mem_map.2 ⟨_, hf, rfl⟩
      unfold privateStep
      by_cases hi : 2 ^ 31 ≤ i.n.toNat
      · rw [if_pos hi] at hp ⊢
        exact prefix_full (m := [.toBytes, .deriveChild, .publicKey]) hp hm (by simp)
      · rw [if_neg hi] at hp ⊢
        exact prefix_full (m := [.publicKey, .pubToBytes, .deriveChild, .publicKey]) hp hm (by simp)

theorem public_child_methods {H : Hashes} {k : SPub K} {i : ChildNumber} {s s' : σ} {r : Res Error (SPub K)}
    {log : List (KeyEvent K.SK K.PK)} (h : k.deriveChild H i s = (r, s', log)) :
    log.map method <+: publicStep i ∧
    ((∃ c, r = .ok c) → i.n.toNat < 2 ^ 31 ∧ log.map method = publicStep i) := by
  obtain ⟨h1, h2, h3⟩ := C110_public_child H k i s
  have hb := k.attrs.depth.toNat_lt
  by_cases hi : 2 ^ 31 ≤ i.n.toNat
  · rw [h1 hi] at h
    cases h
    simp
  · by_cases hd : k.attrs.depth.toNat = 255
    · rw [h2 (by omega) hd] at h
      cases h
      simp
    · obtain ⟨hp, _, _, hr⟩ := h3 (by omega) (by omega) r s' log h
      unfold publicStep
      rw [if_neg hi]
      refine ⟨hp, ?_⟩
      rintro ⟨c, rfl⟩
      rcases hr with ⟨before, last, _, _, hne, hl⟩ | ⟨c', t, b, _, _, _, _, hf, _⟩
      · rw [← hl] at hne
        simp at hne
      · have hm : KeyMethod.fingerprint ∈ log.map method := List.mem_map.2 ⟨_, hf, rfl⟩
        exact ⟨by omega, prefix_full (m := [KeyMethod.pubToBytes, KeyMethod.pubDeriveChild]) hp hm (by simp)⟩

/-- The methods called by a walk, from those called by each step. -/
theorem walk_methods {α : Type} {step : α → ChildNumber → KeyM K α} {ms : ChildNumber → List KeyMethod}
    {ok : ChildNumber → Prop}
    (hstep : ∀ a i s r s' log, step a i s = (r, s', log) → log.map method <+: ms i ∧
      ((∃ c, r = .ok c) → ok i ∧ log.map method = ms i))
    (p : List ChildNumber) (a : α) {s s' : σ} {r : Res Error α} {log : List (KeyEvent K.SK K.PK)}
    (h : p.foldl (fun m i => m >>= fun key => step key i) (pure a) s = (r, s', log)) :
    log.map method <+: p.flatMap ms ∧
    ((∃ c, r = .ok c) → (∀ i ∈ p, ok i) ∧ log.map method = p.flatMap ms) ∧
    (∀ q i t, p = q ++ i :: t → ¬ ok i → log.map method <+: q.flatMap ms ++ ms i) := by
  induction p using List.reverseRecOn generalizing r s' log with
  | nil =>
    cases h
    simp
  | append_singleton p i ih =>
    rw [List.foldl_append, List.foldl_cons, List.foldl_nil] at h
    have hfm : (p ++ [i]).flatMap ms = p.flatMap ms ++ ms i := by simp
    rw [hfm]
    have split : ∀ q j t, p ++ [i] = q ++ j :: t → (p = q ∧ i = j) ∨ ∃ t', p = q ++ j :: t' := by
      intro q j t he
      rcases List.eq_nil_or_concat t with rfl | ⟨t', y, rfl⟩
      · have := List.append_inj' (t₁ := [i]) (t₂ := [j]) he rfl
        exact .inl ⟨this.1, by simpa using this.2⟩
      · right
        rw [List.concat_eq_append, ← List.cons_append, ← List.append_assoc] at he
        exact ⟨t', (List.append_inj' he rfl).1⟩
    rcases bindK_inv h with ⟨c, s1, l1, l2, h1, h2, rfl⟩ | ⟨e, h1, rfl⟩ | ⟨h1, rfl⟩
    · obtain ⟨_, a2, _⟩ := ih h1
      obtain ⟨hall, heq⟩ := a2 ⟨c, rfl⟩
      obtain ⟨b1, b2⟩ := hstep _ _ _ _ _ _ h2
      rw [List.map_append, heq]
      refine ⟨(List.prefix_append_right_inj _).2 b1, ?_, ?_⟩
      · intro hr
        obtain ⟨d1, d2⟩ := b2 hr
        refine ⟨?_, by rw [d2]⟩
        intro j hj
        rcases List.mem_append.1 hj with hj | hj
        · exact hall j hj
        · rw [List.mem_singleton.1 hj]; exact d1
      · intro q j t he hj
        rcases split q j t he with ⟨rfl, rfl⟩ | ⟨t', rfl⟩
        · exact (List.prefix_append_right_inj _).2 b1
        · exact absurd (hall j (by simp)) hj
    · obtain ⟨a1, _, a3⟩ := ih h1
      refine ⟨a1.trans (List.prefix_append _ _), by simp, ?_⟩
      intro q j t he hj
      rcases split q j t he with ⟨rfl, rfl⟩ | ⟨t', hp⟩
      · exact a1.trans (List.prefix_append _ _)
      · exact a3 q j t' hp hj
    · obtain ⟨a1, _, a3⟩ := ih h1
      refine ⟨a1.trans (List.prefix_append _ _), by simp, ?_⟩
      intro q j t he hj
      rcases split q j t he with ⟨rfl, rfl⟩ | ⟨t', hp⟩
      · exact a1.trans (List.prefix_append _ _)
      · exact a3 q j t' hp hj

/-- C110. The methods called along a path are those of its steps, one step after the other, up to the call that fails; all of
them if the walk succeeds.  From a public key no method of a private key is called, and a hardened step ends the walk before
any method is called for it. -/
theorem C110_path_sequence (H : Hashes) (p : DerivationPath) (s s' : σ) :
    (∀ (k : SPrv K) r log, k.deriveFromPath H p s = (r, s', log) →
      log.map method <+: p.iter.flatMap privateStep ∧
      ((∃ c, r = .ok c) → log.map method = p.iter.flatMap privateStep)) ∧
    (∀ (k : SPub K) r log, k.deriveFromPath H p s = (r, s', log) →
      log.map method <+: p.iter.flatMap publicStep ∧
      ((∃ c, r = .ok c) → (∀ i ∈ p.iter, i.n.toNat < 2 ^ 31) ∧ log.map method = p.iter.flatMap publicStep) ∧
      (∀ q i t, p.iter = q ++ i :: t → 2 ^ 31 ≤ i.n.toNat → log.map method <+: q.flatMap publicStep)) := by
  constructor
  · intro k r log h
    have := walk_methods (step := fun key i => SPrv.deriveChild H key i) (ms := privateStep) (ok := fun _ => True)
      (fun a i s r s' log h => ⟨(private_child_methods h).1, fun hr => ⟨trivial, (private_child_methods h).2 hr⟩⟩)
      p.iter k h
    exact ⟨this.1, fun hr => (this.2.1 hr).2⟩
  · intro k r log h
    have := walk_methods (step := fun key i => SPub.deriveChild H key i) (ms := publicStep)
      (ok := fun i => i.n.toNat < 2 ^ 31) (fun a i s r s' log h => public_child_methods h) p.iter k h
    refine ⟨this.1, this.2.1, fun q i t he hi => ?_⟩
    have h3 := this.2.2 q i t he (by omega)
    rwa [publicStep, if_pos hi, List.append_nil] at h3

-- two steps from a public key; a hardened third one is refused without a call
example : let k : SPub lockedModule := ⟨(7 : Nat), ⟨0, zeroArr 4, ⟨0⟩, zeroArr 32⟩⟩
    (k.deriveFromPath (constHash 5) ⟨[⟨3⟩, ⟨1⟩]⟩ 0).2.2.map method =
      [.pubToBytes, .pubDeriveChild, .fingerprint, .pubToBytes, .pubDeriveChild, .fingerprint] ∧
    (k.deriveFromPath (constHash 5) ⟨[⟨3⟩, ⟨1⟩, ⟨0x80000000⟩]⟩ 0).1.map (fun _ => ()) = .err .childNumber ∧
    (k.deriveFromPath (constHash 5) ⟨[⟨3⟩, ⟨1⟩, ⟨0x80000000⟩]⟩ 0).2.2.map method =
      [.pubToBytes, .pubDeriveChild, .fingerprint, .pubToBytes, .pubDeriveChild, .fingerprint] := by
  decide +kernel

end Kms.Props
