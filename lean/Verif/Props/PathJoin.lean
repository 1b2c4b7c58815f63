import Verif.Props.PathTexts
import Verif.Props.Derivation
/-
Path texts that are put together (C137).
-/
namespace Kms.Props
open Kms.Bip32 Kms.Spec

theorem last_slash {a b x y : Str} (h : a ++ '/' :: x = b ++ '/' :: y) (hx : '/' ∉ x) (hy : '/' ∉ y) : a = b ∧ x = y := by
  rcases List.append_eq_append_iff.1 h with ⟨l, h1, h2⟩ | ⟨l, h1, h2⟩
  · rcases l with _ | ⟨c, l⟩
    · simp at h1 h2
      exact ⟨h1.symm, h2⟩
    · rw [List.cons_append, List.cons.injEq] at h2
      exact absurd (by rw [h2.2]; simp) hx
  · rcases l with _ | ⟨c, l⟩
    · simp at h1 h2
      exact ⟨h1, h2.symm⟩
    · rw [List.cons_append, List.cons.injEq] at h2
      exact absurd (by rw [h2.2]; simp) hy

theorem childText_no_slash {t : Str} {i : Nat} {h : Bool} (ht : ChildText t i h) : '/' ∉ t := by
  obtain ⟨sign, digits, h1, h2, _, rfl⟩ := ht
  intro hx
  simp only [List.mem_append] at hx
  rcases hx with (hx | hx) | hx
  · rcases h1 with rfl | rfl
    · cases hx
    · simp at hx
  · have := decimal_chars h2 _ hx
    simp at this
  · split at hx
    · simp at hx
    · cases hx

/-- A text that is a path, a slash and a text without a slash. -/
theorem join_ok_iff {s t : Str} (ht : '/' ∉ t) (q : DerivationPath) : DerivationPath.fromStr (s ++ '/' :: t) = .ok q ↔
    ∃ p c, DerivationPath.fromStr s = .ok p ∧ ChildNumber.fromStr t = .ok c ∧ q = p.push c := by
  constructor
  · intro h
    obtain ⟨segs, h1, h2⟩ := ((C28_path_grammar _).1 q).1 h
    rcases List.eq_nil_or_concat segs with rfl | ⟨init, last, rfl⟩
    · rcases s with _ | ⟨c, s⟩
      · simp at h1
      · simp at h1
    · obtain ⟨l⟩ := q
      rcases List.eq_nil_or_concat l with rfl | ⟨l, c, rfl⟩
      · simp at h2
      rw [← List.forall₂_reverse_iff, List.concat_eq_append, List.concat_eq_append, List.reverse_append,
        List.reverse_append, List.reverse_singleton, List.reverse_singleton, List.singleton_append,
        List.singleton_append, List.forall₂_cons, List.forall₂_reverse_iff] at h2
      rw [List.concat_eq_append] at h1 ⊢
      have h3 : s ++ '/' :: t = ('m' :: init.flatMap (fun t => '/' :: t)) ++ '/' :: last := by
        rw [h1]
        simp
      obtain ⟨rfl, rfl⟩ := last_slash h3 ht (childText_no_slash h2.1)
      exact ⟨⟨l⟩, c, ((C28_path_grammar _).1 _).2 ⟨init, rfl, h2.2⟩, ((C26_child_number_grammar _).1 c).2 h2.1, rfl⟩
  · rintro ⟨p, c, h1, h2, rfl⟩
    obtain ⟨segs, rfl, h3⟩ := ((C28_path_grammar _).1 p).1 h1
    rw [(C28_path_grammar _).1]
    refine ⟨segs ++ [t], by simp, ?_⟩
    exact List.rel_append h3 (.cons (((C26_child_number_grammar t).1 c).1 h2) .nil)

theorem path_starts {s t : Str} : (s ++ '/' :: t = ['m'] ∨ ['m', '/'] <+: s ++ '/' :: t) ↔ (s = ['m'] ∨ ['m', '/'] <+: s) := by
  rcases s with _ | ⟨a, _ | ⟨b, s⟩⟩
  · simp
  · simp [eq_comm]
  · simp

/-- C137. Putting a slash and a child number text after a path text is the same as pushing the child number: the result,
or the error, of reading the whole is that of reading the parts one after the other. -/
theorem C137_append_child (s t : Str) (ht : '/' ∉ t) : DerivationPath.fromStr (s ++ '/' :: t) =
    (DerivationPath.fromStr s >>= fun p => ChildNumber.fromStr t >>= fun c => .ok (p.push c)) := by
  obtain ⟨g1, g2, g3, g4⟩ := C28_path_grammar s
  obtain ⟨j1, j2, j3, j4⟩ := C28_path_grammar (s ++ '/' :: t)
  rcases hs : DerivationPath.fromStr s with p | e | _
  · rw [Res.ok_bind]
    by_cases hc : ∃ i h, ChildText t i h
    · obtain ⟨c, hc⟩ := (C26_child_number_grammar t).2.1.1 hc
      rw [hc, Res.ok_bind]
      exact (join_ok_iff ht _).2 ⟨p, c, hs, hc, rfl⟩
    · have hc' := (C26_child_number_grammar t).2.2.1 hc
      rw [hc', Res.err_bind]
      rw [j3, path_starts]
      refine ⟨?_, fun q hq => ?_⟩
      · obtain ⟨segs, rfl, _⟩ := (g1 p).1 hs
        rcases segs with _ | ⟨a, segs⟩
        · exact .inl rfl
        · exact .inr (by simp)
      · obtain ⟨_, c, _, h, _⟩ := (join_ok_iff ht q).1 hq
        rw [hc'] at h
        cases h
  · rw [Res.err_bind]
    have hn : ∀ q, DerivationPath.fromStr (s ++ '/' :: t) ≠ .ok q := by
      intro q hq
      obtain ⟨_, _, h, _⟩ := (join_ok_iff ht q).1 hq
      rw [hs] at h
      cases h
    by_cases hm : s = ['m'] ∨ ['m', '/'] <+: s
    · have h1 := g3.2 ⟨hm, fun p hp => by rw [hs] at hp; cases hp⟩
      rw [hs] at h1
      cases h1
      exact j3.2 ⟨path_starts.2 hm, hn⟩
    · have h1 := g2.2 hm
      rw [hs] at h1
      cases h1
      exact j2.2 (fun h => hm (path_starts.1 h))
  · exact absurd hs g4

/-- C137. A path text and the part after `m` of another, put together, are read as the two paths one after the other;
what is written is put together in the same way; and the key derived along the whole is the one derived along the
first path and then along the second. -/
theorem C137_append_path (s r : Str) (p q : DerivationPath) (hp : DerivationPath.fromStr s = .ok p)
    (hq : DerivationPath.fromStr ('m' :: r) = .ok q) :
    DerivationPath.fromStr (s ++ r) = .ok (p.extend q.iter) ∧
    'm' :: ((p.extend q.iter).display.drop p.display.length) = q.display ∧
    p.display <+: (p.extend q.iter).display ∧
    (∀ (H : Hashes) (k : XPrv), (k.deriveFromPath H p >>= fun k' => k'.deriveFromPath H q) =
      (DerivationPath.fromStr (s ++ r) >>= fun w => k.deriveFromPath H w)) ∧
    (∀ (H : Hashes) (k : XPub), (k.deriveFromPath H p >>= fun k' => k'.deriveFromPath H q) =
      (DerivationPath.fromStr (s ++ r) >>= fun w => k.deriveFromPath H w)) ∧
    (∀ (H : Hashes) (seed : Bytes), (XPrv.newFromPath H seed p >>= fun k' => k'.deriveFromPath H q) =
      (DerivationPath.fromStr (s ++ r) >>= fun w => XPrv.newFromPath H seed w)) := by
  have h1 : DerivationPath.fromStr (s ++ r) = .ok (p.extend q.iter) := by
    obtain ⟨segs, rfl, h2⟩ := ((C28_path_grammar _).1 p).1 hp
    obtain ⟨segs', h3, h4⟩ := ((C28_path_grammar _).1 q).1 hq
    rw [List.cons.injEq] at h3
    rw [(C28_path_grammar _).1]
    exact ⟨segs ++ segs', by rw [h3.2]; simp, List.rel_append h2 h4⟩
  have h2 : (p.extend q.iter).display = p.display ++ q.path.flatMap (fun c => '/' :: c.display) := by
    rw [display_flat, display_flat]
    simp [DerivationPath.extend, DerivationPath.iter]
  refine ⟨h1, ?_, ?_, fun H k => ?_, fun H k => ?_, fun H seed => ?_⟩
  · rw [h2, List.drop_left, ← display_flat]
  · rw [h2]
    exact List.prefix_append _ _
  · rw [h1, Res.ok_bind]
    exact (C30_path_composition H p q).1 k
  · rw [h1, Res.ok_bind]
    exact (C30_path_composition H p q).2.1 k
  · rw [h1, Res.ok_bind, (C30_path_composition H p q).2.2.1 seed,
      (C30_path_composition H (p.extend q.iter) q).2.2.1 seed]
    rcases XPrv.new H seed with k | e | _
    · exact (C30_path_composition H p q).1 k
    · rfl
    · rfl

/-- C137. The parent of a path is written as the text of the path up to its last slash; a
path has no parent exactly when its text has no slash. -/
theorem C137_parent_text (p : DerivationPath) :
    (∀ q, p.parent = some q → ∃ t, p.display = q.display ++ '/' :: t ∧ '/' ∉ t) ∧
    (∀ s t, p.display = s ++ '/' :: t → '/' ∉ t → ∃ q, p.parent = some q ∧ s = q.display) ∧
    (p.parent = none ↔ '/' ∉ p.display) := by
  have key : ∀ q, p.parent = some q → ∃ t, p.display = q.display ++ '/' :: t ∧ '/' ∉ t := by
    intro q hq
    obtain ⟨c, rfl⟩ := C29_path_structure.2.2.1 p q hq
    refine ⟨c.display, ?_, childText_no_slash (((C26_child_number_grammar _).1 c).1 (C25_child_number_text c))⟩
    rw [display_flat, display_flat]
    simp [DerivationPath.push]
  have hnone : p.parent = none → '/' ∉ p.display := by
    intro h
    rw [C29_path_structure.1] at h
    obtain ⟨l⟩ := p
    rcases l with _ | ⟨c, l⟩
    · decide
    · cases h
  refine ⟨key, ?_, hnone, ?_⟩
  · intro s t h ht
    rcases hp : p.parent with _ | q
    · exact absurd (by rw [h]; simp) (hnone hp)
    · obtain ⟨t', h1, h2⟩ := key q hp
      rw [h] at h1
      exact ⟨q, rfl, (last_slash h1 ht h2).1⟩
  · intro h
    rcases hp : p.parent with _ | q
    · rfl
    · obtain ⟨t', h1, _⟩ := key q hp
      exact absurd (by rw [h1]; simp) h

-- a path put together, and two that are refused
example : DerivationPath.fromStr "m/44'/0".toList = .ok ⟨[⟨0x8000002C#32⟩, ⟨0⟩]⟩ ∧
    DerivationPath.fromStr ("m/44'/0".toList ++ '/' :: "7".toList) = .ok ⟨[⟨0x8000002C#32⟩, ⟨0⟩, ⟨7⟩]⟩ ∧
    DerivationPath.fromStr ("m/44'/0".toList ++ '/' :: "x".toList) = .err .childNumber ∧
    DerivationPath.fromStr ("44'/0".toList ++ '/' :: "7".toList) = .err .decode := by
  decide +kernel

-- a parent, and a path without one
example : (⟨[⟨0x8000002C#32⟩, ⟨7⟩]⟩ : DerivationPath).display = "m/44'".toList ++ '/' :: "7".toList ∧
    (⟨[⟨0x8000002C#32⟩, ⟨7⟩]⟩ : DerivationPath).parent = some ⟨[⟨0x8000002C#32⟩]⟩ ∧
    (⟨[]⟩ : DerivationPath).parent = none := by
  decide +kernel

end Kms.Props
