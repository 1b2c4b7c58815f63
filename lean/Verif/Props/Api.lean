import Verif.Spec.Api
import Verif.Props.Outcomes
import Verif.Props.PhraseCount
import Verif.Props.ChineseSearch
/-
C123: programs that use the whole interface.
-/
namespace Kms.Props
open Kms.Api Kms.Bip32 Kms.Bip39 Kms.Spec Kms.Spec.Api
open Kms.Bip39.Language (binarySearch binarySearch')
open Kms.Spec.Bip32 (I Ipub IL parse256)
open Kms.Spec.Secp (Point G n p HasCoords)

theorem of39_ok {α : Type} {f : α → Answer} {r : Res ErrorKind α} {a : Answer} (h : of39 f r = some (.ok a)) :
    ∃ x, r = .ok x ∧ f x = a := by
  rcases r with x | e | _ <;> simp [of39, Res.map, Res.mapErr] at h ⊢
  exact h

theorem of32_ok {α : Type} {f : α → Answer} {r : Res Bip32.Error α} {a : Answer} (h : of32 f r = some (.ok a)) :
    ∃ x, r = .ok x ∧ f x = a := by
  rcases r with x | e | _ <;> simp [of32, Res.map, Res.mapErr] at h ⊢
  exact h

theorem of39_obj {α : Type} {g : α → Obj} {r : Res ErrorKind α} {o : Obj} (h : of39 (.obj ∘ g) r = some (.ok (.obj o))) :
    ∃ x, r = .ok x ∧ o = g x := by
  obtain ⟨x, h1, h2⟩ := of39_ok h
  exact ⟨x, h1, (Answer.obj.inj h2).symm⟩

theorem of32_obj {α : Type} {g : α → Obj} {r : Res Bip32.Error α} {o : Obj} (h : of32 (.obj ∘ g) r = some (.ok (.obj o))) :
    ∃ x, r = .ok x ∧ o = g x := by
  obtain ⟨x, h1, h2⟩ := of32_ok h
  exact ⟨x, h1, (Answer.obj.inj h2).symm⟩

theorem of39_no_obj {α : Type} {f : α → Answer} {r : Res ErrorKind α} {o : Obj} (hf : ∀ x o, f x ≠ .obj o)
    (h : of39 f r = some (.ok (.obj o))) : False := by
  obtain ⟨x, _, h2⟩ := of39_ok h
  exact hf x o h2

theorem of32_no_obj {α : Type} {f : α → Answer} {r : Res Bip32.Error α} {o : Obj} (hf : ∀ x o, f x ≠ .obj o)
    (h : of32 f r = some (.ok (.obj o))) : False := by
  obtain ⟨x, _, h2⟩ := of32_ok h
  exact hf x o h2

theorem of39_panic {α : Type} {f : α → Answer} {r : Res ErrorKind α} : of39 f r = some .panic ↔ r = .panic := by
  rcases r with x | e | _ <;> simp [of39, Res.map, Res.mapErr]

theorem of32_panic {α : Type} {f : α → Answer} {r : Res Bip32.Error α} : of32 f r = some .panic ↔ r = .panic := by
  rcases r with x | e | _ <;> simp [of32, Res.map, Res.mapErr]

theorem plain_panic {a : Answer} : plain a ≠ some .panic := by simp [plain]

/-- A prefix with a text of four letters is what `from_parts_unchecked` makes of it. -/
theorem fromParts_letters {s : Str} {v : BitVec 32} {p : Prefix} (h : Prefix.fromPartsUnchecked s v = .ok p) :
    FourLetters s ∧ p.asStr = .ok s ∧ p.version = v := by
  by_cases hs : s.length = 4 ∧ ∀ c ∈ s, Letter c
  · obtain ⟨p', h1, h2, h3⟩ := ((C46_prefixes Real.hashes).2.2.2.2.2 s v).1 hs
    rw [h] at h1; cases h1
    exact ⟨hs, h2, h3⟩
  · rw [((C46_prefixes Real.hashes).2.2.2.2.2 s v).2 hs] at h
    cases h

/-- A prefix with a text of four letters is made again from its text and version. -/
theorem fromParts_again {s : Str} {p : Prefix} (hs : FourLetters s) (h : p.asStr = .ok s) :
    Prefix.fromPartsUnchecked s p.version = .ok p := by
  have hm : p.chars.1 = s.map (fun c => UInt8.ofNat c.toNat) := by
    unfold Prefix.asStr asciiStr at h
    split at h
    · rename_i t ht
      cases h
      split at ht
      · cases ht
        rw [List.map_map]
        conv_lhs => rw [← List.map_id p.chars.1]
        rename_i hall
        rw [List.all_eq_true] at hall
        refine List.map_congr_left fun b hb => ?_
        have hb := hall b hb
        simp only [Function.comp, id]
        have : (Char.ofNat b.toNat).toNat = b.toNat := by
          have := b.toNat_lt
          exact toNat_ofNat (by omega) (by omega)
        rw [this]
        simp
      · cases ht
    · cases h
  rw [fromParts_ok hs.1 hs.2]
  rcases p with ⟨⟨cs, hcs⟩, v⟩
  simp only [mkPfx]
  congr 2
  exact Subtype.ext hm.symm

theorem fromVersion_letters {H : Hashes} {v : BitVec 32} {p : Prefix} (h : Prefix.fromVersion H v = .ok p) :
    ∃ s, FourLetters s ∧ p.asStr = .ok s := by
  rcases fromVersion_cases H v with ⟨h1, h2, h3⟩ | ⟨_, h3⟩
  · rw [h] at h3
    refine ⟨_, ⟨h1, h2⟩, (fromParts_letters (v := v) ?_).2.1⟩
    rw [fromParts_ok h1 h2, h3]
  · rw [h] at h3; cases h3

theorem fromStr_letters {H : Hashes} {t : Str} {e : ExtendedKey} (h : ExtendedKey.fromStr H t = .ok e) :
    ∃ s, FourLetters s ∧ e.pfx.asStr = .ok s := by
  have h43 := C43_from_str_exact H t
  obtain ⟨_, hl⟩ := h43.1.1 ⟨e, h⟩
  obtain ⟨h1, h2⟩ := h43.2.1 e h
  refine ⟨_, ⟨?_, hl⟩, h2⟩
  have hc : e.pfx.chars.1.length = 4 := e.pfx.chars.2
  unfold Prefix.asStr asciiStr at h2
  split at h2
  · rename_i u hu
    cases h2
    split at hu
    · have := congrArg List.length (Option.some.inj hu)
      rw [List.length_map, hc] at this
      exact this.symm
    · cases hu
  · cases h2

theorem constants_letters (i : Fin 8) : ∃ s, FourLetters s ∧ (Api.constants[i]).asStr = .ok s := by
  have key : ∀ i : Fin 8, ∃ s, Prefix.fromPartsUnchecked s (Api.constants[i]).version = .ok (Api.constants[i]) := by
    intro i
    refine ⟨["tprv", "tpub", "xprv", "xpub", "yprv", "ypub", "zprv", "zpub"][i].toList, ?_⟩
    revert i
    decide +kernel
  obtain ⟨s, hs⟩ := key i
  exact ⟨s, (fromParts_letters hs).1, (fromParts_letters hs).2.1⟩

/-- What is kept along a history, beside `Origin`. -/
def Good (E : Env) : Obj → Prop
  | .mnemonic m => Constructible E.H m
  | .seed s => ∃ m pw, s = Seed.new E.H m pw
  | .xprv _ => True
  | .xpub k => ReachPub E.H k
  | .prefix p => ∃ s, FourLetters s ∧ p.asStr = .ok s
  | .extendedKey e => ∃ s, FourLetters s ∧ e.pfx.asStr = .ok s

theorem importsPrivate_mono {E : Env} {log : List Call} {c : Call} {k : XPrv} (h : ImportsPrivate E log k) :
    ImportsPrivate E (c :: log) k := by
  rcases h with ⟨seed, h | ⟨path, h⟩, h'⟩ | ⟨s, h, h'⟩ | ⟨e, h, h'⟩
  · exact .inl ⟨seed, .inl (List.mem_cons_of_mem _ h), h'⟩
  · exact .inl ⟨seed, .inr ⟨path, List.mem_cons_of_mem _ h⟩, h'⟩
  · exact .inr (.inl ⟨s, List.mem_cons_of_mem _ h, h'⟩)
  · exact .inr (.inr ⟨e, List.mem_cons_of_mem _ h, h'⟩)

theorem importsMnemonic_mono {E : Env} {log : List Call} {c : Call} {m : Mnemonic} (h : ImportsMnemonic E log m) :
    ImportsMnemonic E (c :: log) m := by
  rcases h with ⟨r, t, l, h, h'⟩ | ⟨e, l, h, h'⟩ | ⟨s, l, h, h'⟩
  · exact .inl ⟨r, t, l, List.mem_cons_of_mem _ h, h'⟩
  · exact .inr (.inl ⟨e, l, List.mem_cons_of_mem _ h, h'⟩)
  · exact .inr (.inr ⟨s, l, List.mem_cons_of_mem _ h, h'⟩)

theorem origin_mono {E : Env} {log : List Call} {c : Call} {o : Obj} (h : Origin E log o) : Origin E (c :: log) o := by
  cases o with
  | mnemonic m => exact importsMnemonic_mono h
  | seed s =>
    obtain ⟨m, pw, h1, h2, h3⟩ := h
    exact ⟨m, pw, List.mem_cons_of_mem _ h1, importsMnemonic_mono h2, h3⟩
  | xprv k =>
    obtain ⟨r, path, h1, h2⟩ := h
    exact ⟨r, path, importsPrivate_mono h1, h2⟩
  | xpub k =>
    rcases h with ⟨k', ⟨r, path, h1, h2⟩, h3⟩ | ⟨r, path, h1, h2, h3⟩
    · exact .inl ⟨k', ⟨r, path, importsPrivate_mono h1, h2⟩, h3⟩
    · refine .inr ⟨r, path, ?_, h2, h3⟩
      rcases h1 with ⟨s, h, h'⟩ | ⟨e, h, h'⟩
      · exact .inl ⟨s, List.mem_cons_of_mem _ h, h'⟩
      · exact .inr ⟨e, List.mem_cons_of_mem _ h, h'⟩
  | «prefix» p => trivial
  | extendedKey e => trivial

theorem privateOrigin_path {E : Env} {log : List Call} {k c : XPrv} {path : DerivationPath} (h : PrivateOrigin E log k)
    (hc : k.deriveFromPath E.H path = .ok c) : PrivateOrigin E log c := by
  obtain ⟨r, q, h1, h2⟩ := h
  refine ⟨r, q.extend path.iter, h1, ?_⟩
  rw [← (C30_path_composition E.H q path).1, h2]
  exact hc

theorem publicOrigin_path {E : Env} {log : List Call} {k c : XPub} {path : DerivationPath} (h : Origin E log (.xpub k))
    (hc : k.deriveFromPath E.H path = .ok c) : Origin E log (.xpub c) := by
  have hn : ∀ i ∈ path.iter, i.n.toNat < 2 ^ 31 := by
    intro i hi
    by_contra hlt
    exact (C32_no_hardened_public E.H k).2.1 path ⟨i, hi, by omega⟩ c hc
  rcases h with ⟨k', h1, rfl⟩ | ⟨r, q, h1, h2, h3⟩
  · have := (C31_public_matches_private E.H k').2 path hn
    rw [hc] at this
    rcases hk : k'.deriveFromPath E.H path with d | e | _ <;> rw [hk] at this <;> cases this
    exact .inl ⟨d, privateOrigin_path h1 hk, rfl⟩
  · refine .inr ⟨r, q.extend path.iter, h1, ?_, ?_⟩
    · intro i hi
      rcases List.mem_append.1 (show i ∈ q.iter ++ path.iter from hi) with hi | hi
      · exact h2 i hi
      · exact hn i hi
    · rw [← (C30_path_composition E.H q path).2.1, h3]
      exact hc

theorem history_good {E : Env} {log : List Call} {held : List Obj} (h : History E log held) :
    ∀ o ∈ held, Good E o ∧ Origin E log o := by
  induction h with
  | start => intro o ho; cases ho
  | dropped _ hs ih => exact fun o ho => ih o (hs ho)
  | nothing _ _ _ ih => exact fun o ho => ⟨(ih o ho).1, origin_mono (ih o ho).2⟩
  | made _ ha hok ih =>
    rename_i log held c o _
    intro o' ho'
    rcases List.mem_cons.1 ho' with rfl | ho'
    swap
    · exact ⟨(ih o' ho').1, origin_mono (ih o' ho').2⟩
    clear ho'
    obtain ⟨hf, hu⟩ := ha
    have hmem : c ∈ c :: log := List.mem_cons_self
    cases c
    case mnemonicNew rng t l =>
      obtain ⟨m, hm, rfl⟩ := of39_obj hok
      exact ⟨.new rng t l m hm, .inl ⟨rng, t, l, hmem, hm⟩⟩
    case mnemonicFromEntropy e l =>
      obtain ⟨m, hm, rfl⟩ := of39_obj hok
      exact ⟨.fromEntropy e l m hf hm, .inr (.inl ⟨e, l, hmem, hm⟩)⟩
    case mnemonicFromPhrase s l =>
      obtain ⟨m, hm, rfl⟩ := of39_obj hok
      exact ⟨.fromPhrase s l m hm, .inr (.inr ⟨s, l, hmem, hm⟩)⟩
    case seedNew m pw =>
      cases hok
      exact ⟨⟨m, pw, rfl⟩, m, pw, hmem, importsMnemonic_mono (ih _ (hu _ List.mem_cons_self)).2, rfl⟩
    case prefixConstant i => cases hok; exact ⟨constants_letters i, trivial⟩
    case prefixFromParts s v =>
      obtain ⟨p, hp, rfl⟩ := of32_obj hok
      exact ⟨⟨s, (fromParts_letters hp).1, (fromParts_letters hp).2.1⟩, trivial⟩
    case prefixFromBytes b =>
      obtain ⟨p, hp, rfl⟩ := of32_obj hok
      exact ⟨fromVersion_letters hp, trivial⟩
    case prefixTryFromVersion v =>
      obtain ⟨p, hp, rfl⟩ := of32_obj hok
      exact ⟨fromVersion_letters hp, trivial⟩
    case prefixTryFromSlice b =>
      obtain ⟨p, hp, rfl⟩ := of32_obj hok
      obtain ⟨_, _, hp⟩ := Res.bind_eq_ok.1 hp
      exact ⟨fromVersion_letters hp, trivial⟩
    case extendedKeyMake p a b =>
      cases hok
      exact ⟨(ih _ (hu _ List.mem_cons_self)).1, trivial⟩
    case extendedKeyFromStr s =>
      obtain ⟨e, he, rfl⟩ := of32_obj hok
      exact ⟨fromStr_letters he, trivial⟩
    case extendedKeyPrefix e =>
      cases hok
      exact ⟨(ih _ (hu _ List.mem_cons_self)).1, trivial⟩
    case xprvNew seed =>
      obtain ⟨k, hk, rfl⟩ := of32_obj hok
      exact ⟨trivial, k, .default, .inl ⟨seed, .inl hmem, hk⟩, rfl⟩
    case xprvNewFromPath seed path =>
      obtain ⟨k, hk, rfl⟩ := of32_obj hok
      rw [(C30_path_composition E.H path .default).2.2.1 seed] at hk
      obtain ⟨r, hr, hk⟩ := Res.bind_eq_ok.1 hk
      exact ⟨trivial, r, path, .inl ⟨seed, .inr ⟨path, hmem⟩, hr⟩, hk⟩
    case xprvFromStr s =>
      obtain ⟨k, hk, rfl⟩ := of32_obj hok
      exact ⟨trivial, k, .default, .inr (.inl ⟨s, hmem, hk⟩), rfl⟩
    case xprvTryFrom e =>
      obtain ⟨k, hk, rfl⟩ := of32_obj hok
      exact ⟨trivial, k, .default, .inr (.inr ⟨e, hmem, hk⟩), rfl⟩
    case xprvDeriveChild k i =>
      obtain ⟨d, hd, rfl⟩ := of32_obj hok
      have ho := origin_mono (c := .xprvDeriveChild k i) (ih _ (hu _ List.mem_cons_self)).2
      exact ⟨trivial, privateOrigin_path (path := DerivationPath.default.push i) ho hd⟩
    case xprvDeriveFromPath k path =>
      obtain ⟨d, hd, rfl⟩ := of32_obj hok
      have ho := origin_mono (c := .xprvDeriveFromPath k path) (ih _ (hu _ List.mem_cons_self)).2
      exact ⟨trivial, privateOrigin_path ho hd⟩
    case xprvPublicKey k =>
      cases hok
      have ho := origin_mono (c := .xprvPublicKey k) (ih _ (hu _ List.mem_cons_self)).2
      exact ⟨.publicKey k (xprv_reachable E.H k), .inl ⟨k, ho, rfl⟩⟩
    case xprvToExtendedKey k p =>
      cases hok
      exact ⟨(ih (.prefix p) (hu _ (by simp [Call.uses]))).1, trivial⟩
    case xpubFromStr s =>
      obtain ⟨k, hk, rfl⟩ := of32_obj hok
      exact ⟨.fromStr s k hk, .inr ⟨k, .default, .inl ⟨s, hmem, hk⟩, by simp [DerivationPath.iter, DerivationPath.default], rfl⟩⟩
    case xpubTryFrom e =>
      obtain ⟨k, hk, rfl⟩ := of32_obj hok
      exact ⟨.tryFrom e k hk, .inr ⟨k, .default, .inr ⟨e, hmem, hk⟩, by simp [DerivationPath.iter, DerivationPath.default], rfl⟩⟩
    case xpubDeriveChild k i =>
      obtain ⟨d, hd, rfl⟩ := of32_obj hok
      obtain ⟨hg, ho⟩ := ih _ (hu _ List.mem_cons_self)
      exact ⟨.deriveChild k i d hg hd, publicOrigin_path (path := DerivationPath.default.push i) (origin_mono ho) hd⟩
    case xpubDeriveFromPath k path =>
      obtain ⟨d, hd, rfl⟩ := of32_obj hok
      obtain ⟨hg, ho⟩ := ih _ (hu _ List.mem_cons_self)
      exact ⟨.deriveFromPath k path d hg hd, publicOrigin_path (origin_mono ho) hd⟩
    case xpubToExtendedKey k p =>
      cases hok
      exact ⟨(ih (.prefix p) (hu _ (by simp [Call.uses]))).1, trivial⟩
    case ecdsaSign sk msg =>
      exfalso
      simp only [Call.answer] at hok
      rcases hr : Kms.ecdsaSign E.H E.debug E.fuel sk msg with _ | r | e | _ <;> rw [hr] at hok <;>
        simp [Res.map, Res.mapErr] at hok
    all_goals
      exfalso
      first
      | exact of39_no_obj (fun _ _ => Answer.noConfusion) hok
      | exact of32_no_obj (fun _ _ => Answer.noConfusion) hok
      | cases hok

theorem good_valid {E : Env} {o : Obj} (h : Good E o) : Valid E.H o := by
  cases o with
  | mnemonic m =>
    obtain ⟨ws, idx, h1, h2, h3⟩ := constructible_shape E.H m h
    rw [words_eq] at h2
    exact ⟨ws, idx, h2, h3, by rw [h1, spaced_eq_join]⟩
  | seed s => obtain ⟨m, pw, rfl⟩ := h; exact C19_seed_length _ _ _
  | xprv k =>
    obtain ⟨h1, h2, _⟩ := (C37_keys_in_range E.H).1 k (xprv_reachable E.H k)
    exact ⟨h1, h2⟩
  | xpub k =>
    obtain ⟨d, h1, h2, h3, _⟩ := (C37_keys_in_range E.H).2 k h
    exact ⟨d, h1, h2, h3⟩
  | «prefix» p => exact h
  | extendedKey e => exact h

/-- C123, first part. Whatever a program does with the interface, every object it holds is valid and comes from what it brought
in; in particular, without bringing in a private key it never holds one, and without a mnemonic it never holds a seed. -/
theorem C123_held_objects (E : Env) (log : List Call) (held : List Obj) (h : History E log held) :
    (∀ o ∈ held, Valid E.H o ∧ Origin E log o) ∧
    ((∀ k, ¬ ImportsPrivate E log k) → ∀ k, .xprv k ∉ held) ∧
    ((∀ m, ¬ ImportsMnemonic E log m) → ∀ m s, .mnemonic m ∉ held ∧ .seed s ∉ held) := by
  have hg := history_good h
  refine ⟨fun o ho => ⟨good_valid (hg o ho).1, (hg o ho).2⟩, fun hn k hk => ?_, fun hn m s => ⟨fun hm => ?_, fun hs => ?_⟩⟩
  · obtain ⟨r, _, h1, _⟩ := (hg _ hk).2
    exact hn r h1
  · exact hn m (hg _ hm).2
  · obtain ⟨m, _, _, h2, _⟩ := (hg _ hs).2
    exact hn m h2

theorem badPublic_iff {H : Hashes} {k : XPub} (hk : ∃ Q, HasCoords Q k.publicKey.x k.publicKey.y) (i : ChildNumber) :
    k.deriveChild H i = .panic ↔ BadPublicChild H k i := by
  constructor
  · intro h
    obtain ⟨Q, hQ⟩ := hk
    exact ⟨Q, hQ, (C79_public_child_failures H k Q hQ i).2.1 h⟩
  · rintro ⟨Q, hQ, h⟩
    exact (C79_public_child_failures H k Q hQ i).2.2 h

theorem badPrivatePath_iff (H : Hashes) (k : XPrv) (path : DerivationPath) :
    k.deriveFromPath H path = .panic ↔ BadPrivatePath H k path := by
  rw [(C80_path_first_failure H).1 k path .panic (by simp)]
  simp only [BadPrivatePath, BadPrivateChild, (C35_derive_child_outcome_partial H _ _).1]

theorem badPublicPath_iff {H : Hashes} {k : XPub} (hk : ReachPub H k) (path : DerivationPath) :
    k.deriveFromPath H path = .panic ↔ BadPublicPath H k path := by
  rw [(C80_path_first_failure H).2.1 k path .panic (by simp)]
  refine exists_congr fun pre => exists_congr fun i => exists_congr fun post => exists_congr fun c => and_congr_right fun _ =>
    and_congr_right fun hc => badPublic_iff (reach_pub H (.deriveFromPath k _ c hk hc)) i

theorem signs_panic (E : Env) (sk : Secp.SecretKey) (msg : Bytes) :
    Kms.ecdsaSign E.H E.debug E.fuel sk msg = some .panic ↔
      E.debug = true ∧ msg.length = 32 ∧ LargeX E.H E.fuel sk.k msg := by
  cases hd : E.debug with
  | false =>
    simp only [Bool.false_eq_true, false_and, iff_false]
    exact (C75_no_panics E.H).2.2.2.2.2.2.2.2.2.2.2 _ _ _
  | true =>
    by_cases hl : msg.length = 32
    · rw [(C62_debug_build E.H E.fuel sk msg hl).2]
      simp only [true_and, hl]
      rfl
    · simp only [hl, false_and, and_false, iff_false]
      unfold Kms.ecdsaSign
      rw [show Secp.parseMessage msg = .err .invalidInputLength from by unfold Secp.parseMessage; rw [if_pos hl]]
      simp

theorem noSearchPanic {search : WordList → Str → Nat ⊕ Nat} (hs : search = binarySearch ∨ search = binarySearch') (l : Language)
    (q : Str) : Language.getWordsByPrefix search l.wordlist q ≠ .panic := by
  intro h
  cases l with
  | english =>
    rcases hs with rfl | rfl
    · rw [(C12_english_prefix_search q).2.1] at h; cases h
    · rw [(C12_english_prefix_search q).2.2] at h; cases h
  | chineseSimplified =>
    obtain ⟨r, hr, _⟩ := C13_chinese_prefix_search_partial search hs q
    rw [hr] at h; cases h

/-- C123, second part. After any history, a call that is given objects of the program panics exactly in the cases that `Panics`
lists. -/
theorem C123_panics (E : Env) (hs : E.search = binarySearch ∨ E.search = binarySearch') (log : List Call) (held : List Obj)
    (h : History E log held) (c : Call) (hc : c.Allowed held) : c.answer E = some .panic ↔ Panics E c := by
  have hg := history_good h
  obtain ⟨hf, hu⟩ := hc
  have h75 := C75_no_panics E.H
  obtain ⟨n1, n2, n3, n4, n5, n6, n7, n8, n9, n10, n11, n12⟩ := h75
  have hasStr : ∀ {p : Prefix}, (∃ s, FourLetters s ∧ p.asStr = .ok s) → p.asStr ≠ .panic := by
    rintro p ⟨s, _, hp⟩ h
    rw [hp] at h; cases h
  cases c
  case mnemonicNew rng t l => exact of39_panic.trans (iff_false_intro (n2 rng t l))
  case mnemonicFromEntropy e l => exact of39_panic.trans (iff_false_intro (n1 e l hf))
  case mnemonicFromPhrase s l => exact of39_panic.trans (iff_false_intro (n3 s l).1)
  case mnemonicValidate s l => exact of39_panic.trans (iff_false_intro (n3 s l).2)
  case getWord l b => exact of39_panic.trans ((C11_wordlist_bijection l).2.2.2.2.2.2.1 b)
  case getBits l w =>
    refine of39_panic.trans (iff_false_intro fun h => ?_)
    obtain ⟨_, _, _, h4, h5, _⟩ := C11_wordlist_bijection l
    by_cases hw : w ∈ Spec.words l
    · obtain ⟨b, _, hb⟩ := h5 w hw
      rw [hb] at h; cases h
    · rw [(h4 w).2 hw] at h; cases h
  case getWordsByPrefix l q => exact of39_panic.trans (iff_false_intro (noSearchPanic hs l q))
  case sizeForWordCount n => exact of39_panic.trans (iff_false_intro (n4 [] n).2.1)
  case sizeForKeySize n => exact of39_panic.trans (iff_false_intro (n4 [] n).2.2)
  case sizeForPhrase s => exact of39_panic.trans (iff_false_intro (n4 s 0).1)
  case childNew i hd => exact of32_panic.trans (iff_false_intro (n5 i hd))
  case childFromStr s => exact of32_panic.trans (iff_false_intro (n6 s).1)
  case pathFromStr s => exact of32_panic.trans (iff_false_intro (n6 s).2)
  case prefixFromParts s v =>
    refine of32_panic.trans ⟨fun h hs => ?_, ((C46_prefixes E.H).2.2.2.2.2 s v).2⟩
    obtain ⟨p, hp, _⟩ := ((C46_prefixes E.H).2.2.2.2.2 s v).1 hs
    rw [hp] at h; cases h
  case prefixFromBytes b => exact of32_panic.trans (iff_false_intro (n7 (u32FromBE b) []).1)
  case prefixTryFromVersion v => exact of32_panic.trans (iff_false_intro (n7 v []).1)
  case prefixTryFromSlice b => exact of32_panic.trans (iff_false_intro (n7 0 b).2)
  case prefixAsStr p => exact of32_panic.trans (iff_false_intro (hasStr (hg _ (hu _ List.mem_cons_self)).1))
  case prefixDebug p pretty =>
    refine of32_panic.trans (iff_false_intro fun h => ?_)
    obtain ⟨s, _, hp⟩ := (hg _ (hu _ List.mem_cons_self)).1
    unfold Prefix.debug at h
    rw [hp] at h; cases h
  case extendedKeyFromStr s => exact of32_panic.trans (iff_false_intro (n8 s).1)
  case extendedKeyToString e => exact of32_panic.trans (iff_false_intro (n9 e).2.2)
  case extendedKeyWriteBase58 e =>
    refine of32_panic.trans (iff_false_intro fun h => ?_)
    obtain ⟨s, hw, _⟩ := ExtendedKey.writeBase58_ok E.H e
    rw [hw] at h; cases h
  case xprvNew seed => exact of32_panic.trans (iff_false_intro (n11 seed))
  case xprvNewFromPath seed path =>
    refine of32_panic.trans (((C80_path_first_failure E.H).2.2 seed path .panic (by simp)).trans ?_)
    simp only [badPrivatePath_iff, n11 seed, false_or]
    rfl
  case xprvFromStr s => exact of32_panic.trans (iff_false_intro (n8 s).2.1)
  case xprvTryFrom e => exact of32_panic.trans (iff_false_intro (n9 e).1)
  case xprvDeriveChild k i => exact of32_panic.trans (C35_derive_child_outcome_partial E.H k i).1
  case xprvDeriveFromPath k path => exact of32_panic.trans (badPrivatePath_iff E.H k path)
  case xprvToString k p => exact of32_panic.trans (iff_false_intro (n10 k k.publicKey p).1)
  case xpubFromStr s => exact of32_panic.trans (iff_false_intro (n8 s).2.2)
  case xpubTryFrom e => exact of32_panic.trans (iff_false_intro (n9 e).2.1)
  case xpubDeriveChild k i =>
    exact of32_panic.trans (badPublic_iff (reach_pub E.H (hg _ (hu _ List.mem_cons_self)).1) i)
  case xpubDeriveFromPath k path =>
    exact of32_panic.trans (badPublicPath_iff (hg _ (hu _ List.mem_cons_self)).1 path)
  case xpubToString k p => exact of32_panic.trans (iff_false_intro (n10 exKey k p).2)
  case ecdsaSign sk msg =>
    refine Iff.trans ?_ (signs_panic E sk msg)
    simp only [Call.answer]
    rcases hr : Kms.ecdsaSign E.H E.debug E.fuel sk msg with _ | r | e | _ <;> simp [Res.map, Res.mapErr]
  all_goals exact iff_false_intro plain_panic

/-- C123 is not vacuous: a program that reads a private key, derives from its public key, and meets a panic. -/
example (fuel : Nat) : ∃ log held, History ⟨constHash 0, false, binarySearch, fuel⟩ log held ∧
    .xprv exKey ∈ held ∧ .xpub exKey.publicKey ∈ held ∧
    Call.answer ⟨constHash 0, false, binarySearch, fuel⟩ (.xpubDeriveChild exKey.publicKey ⟨7⟩) = some .panic := by
  obtain ⟨s, _, hs⟩ := C38_xprv_round_trip (constHash 0) exKey .XPRV (by decide +kernel)
  have h1 : History ⟨constHash 0, false, binarySearch, fuel⟩ [.xprvFromStr s] [.xprv exKey] :=
    .made .start ⟨trivial, by simp [Call.uses]⟩ (by simp only [Call.answer, hs]; rfl)
  have h2 := History.made (c := .xprvPublicKey exKey) h1 ⟨trivial, by simp [Call.uses]⟩ rfl
  refine ⟨_, _, h2, by simp, by simp, ?_⟩
  refine (C123_panics _ (.inl rfl) _ _ h2 (.xpubDeriveChild exKey.publicKey ⟨7⟩) ⟨trivial, by simp [Call.uses]⟩).2 ?_
  refine (badPublic_iff ⟨_, publicKey_coords exKey⟩ ⟨7⟩).1 ?_
  rw [← (C31_public_matches_private _ exKey).1 ⟨7⟩ (by decide)]
  have hp := (C35_derive_child_outcome_partial (constHash 0) exKey ⟨7⟩).1.2 ⟨by decide, .inl (const_I (by decide) exKey ⟨7⟩)⟩
  simp only [hp]
  rfl

/-! ### saving and restoring -/

theorem text39 {α : Type} {g : α → Obj} {r : Res ErrorKind α} {x : α} (h : r = .ok x) :
    of39 (.obj ∘ g) r = some (.ok (.obj (g x))) := by subst h; rfl

theorem text32 {α : Type} {f : α → Answer} {r : Res Bip32.Error α} {x : α} (h : r = .ok x) :
    of32 f r = some (.ok (f x)) := by subst h; rfl

/-- C123, third part. At every point of every history, what the program holds, seeds apart, can be written down and rebuilt from
nothing: there is a history of calls, each of which takes only what the calls of `Restores` answer for the objects held, that ends
with the same objects. -/
theorem C123_save_restore (E : Env) (log : List Call) (held : List Obj) (h : History E log held)
    (hseed : ∀ s, .seed s ∉ held) :
    ∃ log', History E log' held ∧ ∀ c ∈ log', Restores E held c := by
  have hg := history_good h
  have key : ∀ part, part ⊆ held → ∃ log', History E log' part ∧ ∀ c ∈ log', Restores E held c := by
    intro part
    induction part with
    | nil => exact fun _ => ⟨[], .start, by simp⟩
    | cons o part ih =>
      intro hsub
      obtain ⟨log', h1, h2⟩ := ih (fun x hx => hsub (List.mem_cons_of_mem _ hx))
      have ho := hsub List.mem_cons_self
      have hgo := (hg o ho).1
      have one : ∀ c : Call, c.uses = [] → c.Feasible → c.answer E = some (.ok (.obj o)) → Restores E held c →
          ∃ log', History E log' (o :: part) ∧ ∀ c ∈ log', Restores E held c := by
        intro c hu hf ha hr
        refine ⟨c :: log', .made h1 ⟨hf, by rw [hu]; simp⟩ ha, ?_⟩
        intro c' hc'
        rcases List.mem_cons.1 hc' with rfl | hc'
        · exact hr
        · exact h2 c' hc'
      cases o with
      | mnemonic m =>
        exact one (.mnemonicFromPhrase m.asRef m.lang) rfl trivial (text39 (C69_text_forms E.H m hgo).2.2.2.2.1)
          ⟨m, ho, rfl, rfl⟩
      | seed s => exact absurd ho (hseed s)
      | xprv k =>
        obtain ⟨s, h3, h4⟩ := C38_xprv_round_trip E.H k .XPRV (by decide +kernel)
        exact one (.xprvFromStr s) rfl trivial (text32 h4) ⟨k, ho, text32 h3⟩
      | xpub k =>
        obtain ⟨s, h3, h4⟩ := C39_xpub_round_trip E.H k .XPUB (by decide +kernel) (.inl hgo)
        exact one (.xpubFromStr s) rfl trivial (text32 h4) ⟨k, ho, text32 h3⟩
      | «prefix» p =>
        obtain ⟨s, h3, h4⟩ := hgo
        exact one (.prefixFromParts s p.version) rfl trivial (text32 (fromParts_again h3 h4)) ⟨p, .inl ho, text32 h4, rfl⟩
      | extendedKey e =>
        obtain ⟨s, h3, h4⟩ := hgo
        have ha : Call.answer E (.prefixFromParts s e.pfx.version) = some (.ok (.obj (.prefix e.pfx))) :=
          text32 (fromParts_again h3 h4)
        refine ⟨.extendedKeyMake e.pfx e.attrs e.keyBytes :: .prefixFromParts s e.pfx.version :: log',
          .dropped (.made (.made h1 ⟨trivial, by simp [Call.uses]⟩ ha) ⟨trivial, by simp [Call.uses]⟩ rfl) ?_, ?_⟩
        · intro x hx
          rcases List.mem_cons.1 hx with rfl | hx
          · exact List.mem_cons_self
          · exact List.mem_cons_of_mem _ (List.mem_cons_of_mem _ hx)
        · intro c hc
          simp only [List.mem_cons] at hc
          rcases hc with rfl | rfl | hc
          · exact ho
          · exact ⟨e.pfx, .inr ⟨e, ho, rfl⟩, text32 h4, rfl⟩
          · exact h2 c hc
  exact key held (fun _ h => h)

/-- C123 is not vacuous: a program that makes a mnemonic, its master key with its text form and a derived key, then drops the seed. -/
example : ∃ log held, History ⟨constHash 2, true, binarySearch, 1⟩ log held ∧ held.length = 4 ∧ (∀ s, .seed s ∉ held) ∧
    (∃ m, .mnemonic m ∈ held) ∧ (∃ k, .xprv k ∈ held ∧ k.attrs.depth = 1) ∧ ∃ e, .extendedKey e ∈ held := by
  obtain ⟨m, hm⟩ := (C05_from_entropy_acceptance (constHash 2) (List.replicate 16 0) .english (by decide)).1.2 (by decide)
  have hI : IL (Spec.Bip32.master (specHash (constHash 2)) (Seed.new (constHash 2) m []).bytes) = 2 :=
    const_IL (v := 2) (by decide)
  obtain ⟨k, hk⟩ : ∃ k, XPrv.new (constHash 2) (Seed.new (constHash 2) m []).bytes = .ok k := by
    rcases (C36_master_key (constHash 2) (Seed.new (constHash 2) m []).bytes).2.2.2 with h | h | h
    · exact h
    · exact absurd h (C19_seed_accepted _ _ _)
    · have := ((C36_master_key (constHash 2) (Seed.new (constHash 2) m []).bytes).2.1.1 h).2
      rw [hI] at this
      exact absurd this (by decide)
  obtain ⟨hl, h0, hn, hkey, _, hd, _⟩ := ((C36_master_key (constHash 2) (Seed.new (constHash 2) m []).bytes).2.2.1 k).1 hk
  obtain ⟨c, hc, hcd⟩ : ∃ c, k.deriveChild (constHash 2) ⟨0x80000001⟩ = .ok c ∧ c.attrs.depth = 1 := by
    rcases xprv_outcome (constHash 2) k ⟨0x80000001⟩ with ⟨h, _⟩ | ⟨_, h, _⟩ | ⟨_, _, h, _⟩ | ⟨_, _, _, c, h, hc⟩
    · omega
    · rw [const_I (by decide)] at h; exact absurd h (by decide)
    · rw [const_I (by decide), hkey, hI] at h; exact absurd h (by decide)
    · exact ⟨c, h, UInt8.toNat_inj.1 (by rw [hc.2.2.1, hd]; rfl)⟩
  let E : Env := ⟨constHash 2, true, binarySearch, 1⟩
  obtain ⟨P, hP⟩ : ∃ P, Call.answer E (.prefixConstant 2) = some (.ok (.obj (.prefix P))) := ⟨_, rfl⟩
  have a1 : History E [.mnemonicFromEntropy (List.replicate 16 0) .english] [.mnemonic m] :=
    .made .start ⟨by simp [Call.Feasible], by simp [Call.uses]⟩ (text39 hm)
  have a2 := History.made (c := .seedNew m []) a1 ⟨trivial, by simp [Call.uses]⟩ rfl
  have a3 := History.made (c := .xprvNew (Seed.new (constHash 2) m []).bytes) a2 ⟨trivial, by simp [Call.uses]⟩ (text32 hk)
  have a4 := History.made (c := .xprvDeriveChild k ⟨0x80000001⟩) a3 ⟨trivial, by simp [Call.uses]⟩ (text32 hc)
  have a5 := History.made (c := .prefixConstant 2) a4 ⟨trivial, by simp [Call.uses]⟩ hP
  have a6 := History.made (c := .xprvToExtendedKey c P) a5 ⟨trivial, by simp [Call.uses]⟩ rfl
  refine ⟨_, [.mnemonic m, .xprv c, .prefix P, .extendedKey (c.toExtendedKey P)],
    .dropped a6 ?_, rfl, by simp, ⟨m, by simp⟩, ⟨c, by simp, hcd⟩, ⟨c.toExtendedKey P, by simp⟩⟩
  intro x hx
  simp only [List.mem_cons, List.not_mem_nil, or_false] at hx
  rcases hx with rfl | rfl | rfl | rfl <;> simp [E]

end Kms.Props
