import Verif.Spec.ApiErrors
import Verif.Props.Api
import Verif.Props.Chance
/-
C124: the errors of the whole interface.
-/
namespace Kms.Props
open Kms.Api Kms.Bip32 Kms.Bip39 Kms.Spec Kms.Spec.Api
open Kms.Bip39.Language (binarySearch binarySearch')
open Kms.Spec.Bip32 (I Ipub IL IR parse256 master)
open Kms.Spec.Secp (Point G n p HasCoords)

theorem of39_err {α : Type} {f : α → Answer} {r : Res ErrorKind α} {e : Err} (h : of39 f r = some (.err e)) :
    ∃ k, r = .err k ∧ e = .bip39 k := by
  rcases r with x | k | _ <;> simp [of39, Res.map, Res.mapErr] at h ⊢
  exact h.symm

theorem of32_err {α : Type} {f : α → Answer} {r : Res Bip32.Error α} {e : Err} (h : of32 f r = some (.err e)) :
    ∃ k, r = .err k ∧ e = .bip32 k := by
  rcases r with x | k | _ <;> simp [of32, Res.map, Res.mapErr] at h ⊢
  exact h.symm

theorem plain_err {a : Answer} {e : Err} : plain a ≠ some (.err e) := by simp [plain]

theorem err39 {α : Type} {f : α → Answer} {r : Res ErrorKind α} {k : ErrorKind} (h : r = .err k) :
    of39 f r = some (.err (.bip39 k)) := by subst h; rfl

theorem err32 {α : Type} {f : α → Answer} {r : Res Bip32.Error α} {k : Bip32.Error} (h : r = .err k) :
    of32 f r = some (.err (.bip32 k)) := by subst h; rfl

theorem phrase_errors {H : Hashes} {l : Language} {s : Str} {ws : List Str} {k : ErrorKind} (hp : Pieces s ws)
    (h : expectedError H l ws (some k)) :
    k = .invalidWord ∨ k = .invalidChecksum ∨ ∃ m, m ≠ 0 ∧ m ∉ sizes ∧ k = .invalidWordLength m := by
  cases k with
  | invalidWord => exact .inl rfl
  | invalidChecksum => exact .inr (.inl rfl)
  | invalidWordLength m =>
    obtain ⟨_, rfl, h3⟩ := h
    exact .inr (.inr ⟨_, fun h0 => hp.1 (List.length_eq_zero_iff.1 h0), h3, rfl⟩)
  | invalidKeysize m => exact h.elim
  | invalidEntropyLength m t => exact h.elim

theorem tryFrom_version_errors {H : Hashes} {v : BitVec 32} {k : Bip32.Error} (h : Prefix.fromVersion H v = .err k) : k = .decode := by
  rcases fromVersion_cases H v with ⟨_, _, h3⟩ | ⟨_, h3⟩
  · rw [h] at h3; cases h3
  · rw [h] at h3; cases h3; rfl

theorem extendedKey_errors {H : Hashes} {s : Str} {k : Bip32.Error} (h : ExtendedKey.fromStr H s = .err k) :
    k = .base58 ∨ k = .decode := by
  rcases (C43_from_str_exact H s).2.2.2 k h with ⟨_, h⟩ | ⟨_, h⟩
  · exact .inr h
  · exact .inl h

/-- C124, first half. After any history, an error that a call answers is in the table. -/
theorem C124_errors_listed (E : Env) (hs : E.search = binarySearch ∨ E.search = binarySearch') (log : List Call) (held : List Obj)
    (h : History E log held) (c : Call) (hc : c.Allowed held) (e : Err) (he : c.answer E = some (.err e)) :
    ErrorTable (fn c) e := by
  have hg := history_good h
  obtain ⟨hf, hu⟩ := hc
  cases c
  case mnemonicNew rng t l =>
    obtain ⟨k, h1, rfl⟩ := of39_err he
    have hl : (rng (t.entropyBits / 8)).1.length ∈ entropyLengths := by
      rw [(rng (t.entropyBits / 8)).2]
      cases t <;> decide
    obtain ⟨ws, idx, hok, _⟩ := fromEntropyUnchecked_spec E.H _ l hl
    rw [show Mnemonic.new E.H rng t l = .ok _ from hok] at h1; cases h1
  case mnemonicFromEntropy e l =>
    obtain ⟨k, h1, rfl⟩ := of39_err he
    obtain ⟨c1, c2, _⟩ := C05_from_entropy_acceptance E.H e l hf
    by_cases hl : e.length ∈ entropyLengths
    · obtain ⟨m, hm⟩ := c1.2 hl
      rw [hm] at h1; cases h1
    · rw [c2 hl] at h1; cases h1
      exact .entropySize _ hf hl
  case mnemonicFromPhrase s l =>
    obtain ⟨k, h1, rfl⟩ := of39_err he
    obtain ⟨_, _, _, vs, ws, _, hp, hk, _⟩ := C04_error_classification E.H s l
    rcases phrase_errors hp ((hk k).1 h1) with rfl | rfl | ⟨m, h0, hm, rfl⟩
    · exact .phraseWord
    · exact .phraseChecksum
    · exact .phraseLength m h0 hm
  case mnemonicValidate s l =>
    obtain ⟨k, h1, rfl⟩ := of39_err he
    obtain ⟨_, _, ⟨ws, hp, hk, _⟩, _⟩ := C04_error_classification E.H s l
    rcases phrase_errors hp ((hk k).1 h1) with rfl | rfl | ⟨m, h0, hm, rfl⟩
    · exact .validateWord
    · exact .validateChecksum
    · exact .validateLength m h0 hm
  case getWord l b =>
    obtain ⟨k, h1, rfl⟩ := of39_err he
    unfold Language.getWord at h1
    split at h1 <;> cases h1
  case getBits l w =>
    obtain ⟨k, h1, rfl⟩ := of39_err he
    obtain ⟨rfl, _⟩ := (Bip39.getBits_eq_err_iff l w k).1 h1
    exact .bitsWord
  case getWordsByPrefix l q =>
    obtain ⟨k, h1, rfl⟩ := of39_err he
    cases l with
    | english =>
      rcases hs with hs | hs <;> rw [hs] at h1
      · rw [(C12_english_prefix_search q).2.1] at h1; cases h1
      · rw [(C12_english_prefix_search q).2.2] at h1; cases h1
    | chineseSimplified =>
      obtain ⟨r, hr, _⟩ := C13_chinese_prefix_search_partial E.search hs q
      rw [hr] at h1; cases h1
  case sizeForWordCount m =>
    obtain ⟨k, h1, rfl⟩ := of39_err he
    obtain ⟨_, _, c3, _, _, c6, _⟩ := C16_mnemonic_types
    by_cases hm : m ∈ [12, 15, 18, 21, 24]
    · obtain ⟨t, ht⟩ := c6 m hm
      rw [ht] at h1; cases h1
    · rw [c3 m hm] at h1; cases h1
      exact .sizeWords m hm
  case sizeForKeySize m =>
    obtain ⟨k, h1, rfl⟩ := of39_err he
    obtain ⟨_, _, _, c4, _, _, c7⟩ := C16_mnemonic_types
    by_cases hm : m ∈ [128, 160, 192, 224, 256]
    · obtain ⟨t, ht⟩ := c7 m hm
      rw [ht] at h1; cases h1
    · rw [c4 m hm] at h1; cases h1
      exact .sizeKey m hm
  case sizeForPhrase s =>
    obtain ⟨k, h1, rfl⟩ := of39_err he
    obtain ⟨_, _, c3, c4⟩ := C17_for_phrase E.H
    by_cases hm : s.count ' ' + 1 ∈ sizes
    · obtain ⟨t, ht⟩ := C16_mnemonic_types.2.2.2.2.2.1 _ hm
      rw [(c3 s t).2 ((C16_mnemonic_types.1 _ t).1 ht)] at h1; cases h1
    · rw [c4 s hm] at h1; cases h1
      exact .sizePhrase _ (by omega) hm
  case childNew i hd =>
    obtain ⟨k, h1, rfl⟩ := of32_err he
    obtain ⟨c1, _, c3, _⟩ := C23_child_number_new
    by_cases hi : i.toNat < 2 ^ 31
    · obtain ⟨c, hc⟩ := (c1 i hd).2 hi
      rw [hc] at h1; cases h1
    · rw [c3 i hd (by omega)] at h1; cases h1
      exact .childNew
  case childFromStr s =>
    obtain ⟨k, h1, rfl⟩ := of32_err he
    obtain ⟨_, c2, c3⟩ := C26_child_number_grammar s
    by_cases hx : ∃ i h, ChildText s i h
    · obtain ⟨c, hc⟩ := c2.1 hx
      rw [hc] at h1; cases h1
    · rw [c3.1 hx] at h1; cases h1
      exact .childText
  case pathFromStr s =>
    obtain ⟨k, h1, rfl⟩ := of32_err he
    obtain ⟨_, c2, c3, _⟩ := C28_path_grammar s
    by_cases hx : s = ['m'] ∨ ['m', '/'] <+: s
    · rw [c3.2 ⟨hx, fun p hp => by rw [hp] at h1; cases h1⟩] at h1; cases h1
      exact .pathChild
    · rw [c2.2 hx] at h1; cases h1
      exact .pathStart
  case prefixFromParts s v =>
    obtain ⟨k, h1, rfl⟩ := of32_err he
    obtain ⟨c1, c2⟩ := (C46_prefixes E.H).2.2.2.2.2 s v
    by_cases hx : s.length = 4 ∧ ∀ c ∈ s, Letter c
    · obtain ⟨p, hp, _⟩ := c1 hx
      rw [hp] at h1; cases h1
    · rw [c2 hx] at h1; cases h1
  case prefixFromBytes b =>
    obtain ⟨k, h1, rfl⟩ := of32_err he
    cases tryFrom_version_errors h1
    exact .version
  case prefixTryFromVersion v =>
    obtain ⟨k, h1, rfl⟩ := of32_err he
    cases tryFrom_version_errors h1
    exact .version
  case prefixTryFromSlice b =>
    obtain ⟨k, h1, rfl⟩ := of32_err he
    have : k = .decode := by
      by_cases hl : b.length = 4
      · unfold Prefix.tryFromSlice at h1
        rw [tryIntoArr_ok hl, Res.ok_bind] at h1
        exact tryFrom_version_errors h1
      · rw [((C46_prefixes E.H).2.2.2.2.1 b).2 hl] at h1; cases h1
        rfl
    subst this
    exact .slice
  case prefixAsStr p =>
    obtain ⟨k, h1, rfl⟩ := of32_err he
    obtain ⟨s, _, hp⟩ := (hg _ (hu _ List.mem_cons_self)).1
    rw [hp] at h1; cases h1
  case prefixDebug p pretty =>
    obtain ⟨k, h1, rfl⟩ := of32_err he
    obtain ⟨s, _, hp⟩ := (hg _ (hu _ List.mem_cons_self)).1
    unfold Prefix.debug at h1
    rw [hp] at h1; cases h1
  case extendedKeyFromStr s =>
    obtain ⟨k, h1, rfl⟩ := of32_err he
    rcases extendedKey_errors h1 with rfl | rfl
    · exact .keyText
    · exact .keyBytes
  case extendedKeyToString e =>
    obtain ⟨k, h1, rfl⟩ := of32_err he
    obtain ⟨_, _, hw, _⟩ := C41_write_base58_total E.H e
    rw [hw] at h1; cases h1
  case extendedKeyWriteBase58 e =>
    obtain ⟨k, h1, rfl⟩ := of32_err he
    obtain ⟨s, hw, _⟩ := ExtendedKey.writeBase58_ok E.H e
    rw [hw] at h1; cases h1
  case xprvNew seed =>
    obtain ⟨k, h1, rfl⟩ := of32_err he
    rcases (C36_master_key E.H seed).2.2.2 with ⟨x, hx⟩ | hx | hx <;> rw [hx] at h1 <;> cases h1
    · exact .seedLength
    · exact .seedBad
  case xprvNewFromPath seed path =>
    obtain ⟨k, h1, rfl⟩ := of32_err he
    rcases ((C80_path_first_failure E.H).2.2 seed path (.err k) (by simp)).1 h1 with h1 | ⟨m, _, h1⟩
    · rcases (C36_master_key E.H seed).2.2.2 with ⟨x, hx⟩ | hx | hx <;> rw [hx] at h1 <;> cases h1
      · exact .pathSeedLength
      · exact .pathSeedBad
    · obtain ⟨_, i, _, c, _, _, h3⟩ := ((C80_path_first_failure E.H).1 m path (.err k) (by simp)).1 h1
      rcases ((C35_derive_child_outcome_partial E.H c i).2 k).1 h3 with ⟨_, rfl⟩ | ⟨_, _, _, _, rfl⟩
      · exact .pathSeedDepth
      · exact .pathSeedBad
  case xprvFromStr s =>
    obtain ⟨k, h1, rfl⟩ := of32_err he
    rcases (C59_xprv_acceptance E.H s).2.2 k h1 with ⟨rfl, _⟩ | h2
    · exact .xprvKey
    · rcases extendedKey_errors h2 with rfl | rfl
      · exact .xprvText
      · exact .xprvBytes
  case xprvTryFrom e =>
    obtain ⟨k, h1, rfl⟩ := of32_err he
    rcases xprv_tryFrom_cases e with ⟨x, hx, _⟩ | ⟨hx, _⟩ <;> rw [hx] at h1 <;> cases h1
    exact .xprvOf
  case xprvDeriveChild x i =>
    obtain ⟨k, h1, rfl⟩ := of32_err he
    rcases ((C35_derive_child_outcome_partial E.H x i).2 k).1 h1 with ⟨_, rfl⟩ | ⟨_, _, _, _, rfl⟩
    · exact .xprvDepth
    · exact .xprvZero
  case xprvDeriveFromPath x path =>
    obtain ⟨k, h1, rfl⟩ := of32_err he
    obtain ⟨_, i, _, c, _, _, h3⟩ := ((C80_path_first_failure E.H).1 x path (.err k) (by simp)).1 h1
    rcases ((C35_derive_child_outcome_partial E.H c i).2 k).1 h3 with ⟨_, rfl⟩ | ⟨_, _, _, _, rfl⟩
    · exact .xprvPathDepth
    · exact .xprvPathZero
  case xprvToString x p =>
    obtain ⟨k, h1, rfl⟩ := of32_err he
    obtain ⟨_, _, hw, _⟩ := C41_write_base58_total E.H (x.toExtendedKey p)
    rw [show x.toString E.H p = .ok _ from hw] at h1; cases h1
  case xpubFromStr s =>
    obtain ⟨k, h1, rfl⟩ := of32_err he
    rcases (C60_xpub_acceptance E.H s).2.2 k h1 with ⟨rfl, _⟩ | h2
    · exact .xpubKey
    · rcases extendedKey_errors h2 with rfl | rfl
      · exact .xpubText
      · exact .xpubBytes
  case xpubTryFrom e =>
    obtain ⟨k, h1, rfl⟩ := of32_err he
    rcases xpub_tryFrom_cases e with ⟨x, hx, _⟩ | ⟨hx, _⟩ <;> rw [hx] at h1 <;> cases h1
    exact .xpubOf
  case xpubDeriveChild x i =>
    obtain ⟨k, h1, rfl⟩ := of32_err he
    obtain ⟨Q, hQ⟩ := reach_pub E.H (hg _ (hu _ List.mem_cons_self)).1
    rcases ((C79_public_child_failures E.H x Q hQ i).1 k).1 h1 with ⟨_, rfl⟩ | ⟨_, _, rfl⟩ | ⟨_, _, _, _, _, rfl⟩
    · exact .xpubHardened
    · exact .xpubDepth
    · exact .xpubZero
  case xpubDeriveFromPath x path =>
    obtain ⟨k, h1, rfl⟩ := of32_err he
    obtain ⟨_, i, _, c, _, h2, h3⟩ := ((C80_path_first_failure E.H).2.1 x path (.err k) (by simp)).1 h1
    obtain ⟨Q, hQ⟩ := reach_pub E.H (.deriveFromPath x _ c (hg _ (hu _ List.mem_cons_self)).1 h2)
    rcases ((C79_public_child_failures E.H c Q hQ i).1 k).1 h3 with ⟨_, rfl⟩ | ⟨_, _, rfl⟩ | ⟨_, _, _, _, _, rfl⟩
    · exact .xpubPathHardened
    · exact .xpubPathDepth
    · exact .xpubPathZero
  case xpubToString x p =>
    obtain ⟨k, h1, rfl⟩ := of32_err he
    obtain ⟨_, _, hw, _⟩ := C41_write_base58_total E.H (x.toExtendedKey p)
    rw [show x.toString E.H p = .ok _ from hw] at h1; cases h1
  case ecdsaSign sk msg =>
    obtain ⟨c1, c2⟩ := C51_input_length E.H E.debug E.fuel sk msg
    simp only [Call.answer] at he
    rcases hr : Kms.ecdsaSign E.H E.debug E.fuel sk msg with _ | r | k | _ <;> rw [hr] at he <;>
      simp [Res.map, Res.mapErr] at he
    have hl := c1.1 ⟨k, hr⟩
    rw [c2 hl] at hr
    cases hr
    subst he
    exact .message
  all_goals exact absurd he plain_err

/-! ### every entry of the table occurs -/

/-- Some program gets this error from this function. -/
def Occurs (f : Fn) (e : Err) : Prop :=
  ∃ E log held c, (E.search = binarySearch ∨ E.search = binarySearch') ∧ History E log held ∧ c.Allowed held ∧ fn c = f ∧
    c.answer E = some (.err e)

/-- A call that needs no object. -/
theorem occurs_at_start {f : Fn} {e : Err} (H : Hashes) (c : Call) (hf : fn c = f) (hu : c.uses = []) (hz : c.Feasible)
    (h : c.answer ⟨H, false, binarySearch, 0⟩ = some (.err e)) : Occurs f e :=
  ⟨⟨H, false, binarySearch, 0⟩, [], [], c, .inl rfl, .start, ⟨hz, by simp [hu]⟩, hf, h⟩

/-- A call that is given a private key or its public key: any private key can be held. -/
theorem occurs_with_key {f : Fn} {e : Err} (H : Hashes) (k : XPrv) (c : Call) (hf : fn c = f)
    (hu : ∀ u ∈ c.uses, u ∈ [.xpub k.publicKey, .xprv k]) (hz : c.Feasible)
    (h : c.answer ⟨H, false, binarySearch, 0⟩ = some (.err e)) : Occurs f e := by
  obtain ⟨s, _, hs⟩ := C38_xprv_round_trip H k .XPRV (by decide +kernel)
  have h1 : History ⟨H, false, binarySearch, 0⟩ [.xprvFromStr s] [.xprv k] :=
    .made .start ⟨trivial, by simp [Call.uses]⟩ (text32 hs)
  have h2 := History.made (c := .xprvPublicKey k) h1 ⟨trivial, by simp [Call.uses]⟩ rfl
  exact ⟨_, _, _, c, .inl rfl, h2, ⟨hz, hu⟩, hf, h⟩

/-- A call that is given an extended key made from a constant prefix. -/
theorem occurs_with_extended {f : Fn} {e : Err} (i : Fin 8) (c : ExtendedKey → Call) (hf : ∀ x, fn (c x) = f)
    (hu : ∀ x, (c x).uses = [.extendedKey x]) (hz : ∀ x, (c x).Feasible)
    (h : (c ⟨Api.constants[i], exKey.attrs, zeroArr 33⟩).answer ⟨Real.hashes, false, binarySearch, 0⟩ = some (.err e)) : Occurs f e := by
  have h1 : History ⟨Real.hashes, false, binarySearch, 0⟩ [.prefixConstant i] [.prefix Api.constants[i]] :=
    .made .start ⟨trivial, by simp [Call.uses]⟩ rfl
  have h2 := History.made (c := .extendedKeyMake Api.constants[i] exKey.attrs (zeroArr 33)) h1 ⟨trivial, by simp [Call.uses]⟩ rfl
  exact ⟨_, _, _, c ⟨Api.constants[i], exKey.attrs, zeroArr 33⟩, .inl rfl, h2, ⟨hz _, by simp [hu]⟩, hf _, h⟩

/-- The example key at depth 255. -/
def deepKey : XPrv := ⟨exKey.privateKey, ⟨255, zeroArr 4, ⟨0⟩, zeroArr 32⟩⟩

theorem abandon_mem : "abandon".toList ∈ words .english := by
  rw [← words_eq, wordlist_english]; decide +kernel

theorem abandons (m : Nat) (hm : m ≠ 0) : Pieces (spaced (List.replicate m "abandon".toList)) (List.replicate m "abandon".toList) :=
  pieces_spaced .english (by simp [hm]) fun w hw => by rw [List.eq_of_mem_replicate hw]; exact abandon_mem

theorem validate_length (H : Hashes) (m : Nat) (h0 : m ≠ 0) (hm : m ∉ sizes) :
    Mnemonic.validate H (spaced (List.replicate m "abandon".toList)) .english = .err (.invalidWordLength m) := by
  obtain ⟨_, _, ⟨ws, hp, hk, _⟩, _⟩ := C04_error_classification H (spaced (List.replicate m "abandon".toList)) .english
  have hw : ws = List.replicate m "abandon".toList := (pieces_iff.1 hp).symm.trans (pieces_iff.1 (abandons m h0))
  subst hw
  refine (hk _).2 ⟨fun w hw => ?_, by simp, hm⟩
  rw [List.eq_of_mem_replicate hw]; exact abandon_mem

theorem fromPhrase_length (H : Hashes) (m : Nat) (h0 : m ≠ 0) (hm : m ∉ sizes) :
    Mnemonic.fromPhrase H (spaced (List.replicate m "abandon".toList)) .english = .err (.invalidWordLength m) := by
  obtain ⟨_, _, _, vs, ws, hv, hp, hk, _⟩ := C04_error_classification H (spaced (List.replicate m "abandon".toList)) .english
  have hat : WordsAt Language.english.wordlist (List.replicate m "abandon".toList) (List.replicate m 0) := by
    unfold WordsAt
    rw [List.map_replicate, List.map_replicate, wordlist_english]
    rfl
  have hvs : vs = List.replicate m "abandon".toList := by
    rw [← normalWords_iff.1 hv, spaced_eq_join]
    exact wordsAt_normal .english hat
  subst hvs
  have hw : ws = List.replicate m "abandon".toList := (pieces_iff.1 hp).symm.trans (pieces_iff.1 (abandons m h0))
  subst hw
  refine (hk _).2 ⟨fun w hw => ?_, by simp, hm⟩
  rw [List.eq_of_mem_replicate hw]; exact abandon_mem

/-- With `I_L = 2` a path of `j` steps leads from the private key 2 at depth 0 to depth `j`. -/
theorem long_path (j : Nat) (hj : j ≤ 255) (k : XPrv) (hd : k.attrs.depth.toNat = 0) (hk : k.privateKey.k = 2) :
    ∃ c, k.deriveFromPath (constHash 2) ⟨List.replicate j ⟨0⟩⟩ = .ok c ∧ c.attrs.depth.toNat = j ∧ c.privateKey.k = 2 * (j + 1) := by
  induction j with
  | zero => exact ⟨k, rfl, hd, hk⟩
  | succ j ih =>
    obtain ⟨c, h1, h2, h3⟩ := ih (by omega)
    have hn : (1000 : Nat) < n := by decide
    rcases xprv_outcome (constHash 2) c ⟨0⟩ with ⟨h, _⟩ | ⟨_, h, _⟩ | ⟨_, _, h, _⟩ | ⟨_, _, _, c', h, hk', _, hd', _⟩
    · omega
    · rw [const_I (by decide)] at h; omega
    · rw [const_I (by decide), h3, Nat.mod_eq_of_lt (by omega)] at h; omega
    · rw [const_I (by decide), h3, Nat.mod_eq_of_lt (by omega)] at hk'
      refine ⟨c', ?_, by omega, by omega⟩
      have hc := (C30_path_composition (constHash 2) ⟨List.replicate j ⟨0⟩⟩ ⟨[⟨0⟩]⟩).1 k
      rw [h1] at hc
      rw [List.replicate_succ']
      exact hc.symm.trans h

/-- C124, second half. Every entry of the table is an error that some program gets. -/
theorem C124_errors_occur (f : Fn) (e : Err) (h : ErrorTable f e) :
    ∃ E log held c, (E.search = binarySearch ∨ E.search = binarySearch') ∧ History E log held ∧ c.Allowed held ∧ fn c = f ∧
      c.answer E = some (.err e) := by
  have vals : Mnemonic.validate Real.hashes "legal winner thank year wave sausage worth useful legal winner thank legal".toList
        .english = .err .invalidChecksum ∧
      Mnemonic.validate Real.hashes "legal winer".toList .english = .err .invalidWord ∧
      Mnemonic.fromPhrase Real.hashes "legal winner thank year wave sausage worth useful legal winner thank legal".toList
        .english = .err .invalidChecksum ∧
      Mnemonic.fromPhrase Real.hashes "legal winer".toList .english = .err .invalidWord ∧
      Language.getBits Language.english.wordmap "winer".toList = .err .invalidWord := by
    unfold Mnemonic.validate Mnemonic.fromPhrase Mnemonic.phraseToEntropy Language.wordmap
    rw [wordlist_english]
    decide +kernel
  obtain ⟨v1, v2, v3, v4, v5⟩ := vals
  have ver : Prefix.fromVersion Real.hashes 0 = .err .decode := by decide +kernel
  have txt : ExtendedKey.fromStr Real.hashes "xprv0".toList = .err .base58 ∧
      ExtendedKey.fromStr Real.hashes "3QJmnh".toList = .err .decode := by decide +kernel
  have path0 : DerivationPath.fromStr "x".toList = .err .decode ∧ DerivationPath.fromStr "m/x".toList = .err .childNumber ∧
      ChildNumber.fromStr "x".toList = .err .childNumber ∧ ChildNumber.new 0xffffffff false = .err .childNumber := by decide +kernel
  have prvDepth : ∀ H, deepKey.deriveChild H ⟨0⟩ = .err .depth := fun H =>
    ((C35_derive_child_outcome_partial H deepKey ⟨0⟩).2 _).2 (.inl ⟨rfl, rfl⟩)
  have prvZero : exKey.deriveChild (constHash (n - 1)) ⟨0⟩ = .err .crypto := by
    refine ((C35_derive_child_outcome_partial _ exKey ⟨0⟩).2 _).2 (.inr ⟨by decide, ?_⟩)
    rw [const_I (by decide)]
    refine ⟨by decide, by decide, by decide +kernel, rfl⟩
  have pubHard : ∀ H, exKey.publicKey.deriveChild H ⟨0x80000000⟩ = .err .childNumber := fun H =>
    ((C79_public_child_failures H _ _ (publicKey_coords exKey) ⟨0x80000000⟩).1 _).2 (.inl ⟨by decide, rfl⟩)
  have pubDepth : ∀ H, deepKey.publicKey.deriveChild H ⟨0⟩ = .err .depth := by
    intro H
    have := (C31_public_matches_private H deepKey).1 ⟨0⟩ (by decide)
    rw [prvDepth] at this
    exact this.symm
  have pubZero : exKey.publicKey.deriveChild (constHash (n - 1)) ⟨0⟩ = .err .crypto := by
    have := (C31_public_matches_private (constHash (n - 1)) exKey).1 ⟨0⟩ (by decide)
    rw [prvZero] at this
    exact this.symm
  have onePrv : ∀ H (k : XPrv) i e, k.deriveChild H i = .err e → k.deriveFromPath H ⟨[i]⟩ = .err e := fun H k i e h =>
    ((C80_path_first_failure H).1 k ⟨[i]⟩ (.err e) (by simp)).2 ⟨[], i, [], k, rfl, rfl, h⟩
  have onePub : ∀ H (k : XPub) i e, k.deriveChild H i = .err e → k.deriveFromPath H ⟨[i]⟩ = .err e := fun H k i e h =>
    ((C80_path_first_failure H).2.1 k ⟨[i]⟩ (.err e) (by simp)).2 ⟨[], i, [], k, rfl, rfl, h⟩
  have seedShort : XPrv.new Real.hashes [] = .err .seedLength := (C36_master_key _ _).1.2 (by decide)
  have seedBad : XPrv.new (constHash 0) (List.replicate 64 0) = .err .crypto := by
    refine (C36_master_key _ _).2.1.2 ⟨by simp, .inl (const_IL (v := 0) (by decide))⟩
  obtain ⟨badText, _, bt1, bt2⟩ := (C44_private_public_separate Real.hashes).2.1 exKey .XPUB (by decide +kernel)
  have seedPath : ∀ H seed path e, XPrv.new H seed = .err e → XPrv.newFromPath H seed path = .err e := fun H seed path e h =>
    ((C80_path_first_failure H).2.2 seed path (.err e) (by simp)).2 (.inl h)
  show Occurs f e
  cases h with
  | entropySize b h1 h2 =>
    refine occurs_at_start Real.hashes (.mnemonicFromEntropy (List.replicate b 0) .english) rfl rfl (by simpa [Call.Feasible] using h1) (err39 ?_)
    have := (C05_from_entropy_acceptance Real.hashes (List.replicate b 0) .english (by simpa using h1)).2.1 (by simpa using h2)
    simpa using this
  | phraseWord => exact occurs_at_start Real.hashes (.mnemonicFromPhrase _ .english) rfl rfl trivial (err39 v4)
  | phraseChecksum => exact occurs_at_start Real.hashes (.mnemonicFromPhrase _ .english) rfl rfl trivial (err39 v3)
  | phraseLength m h0 hm =>
    exact occurs_at_start Real.hashes (.mnemonicFromPhrase _ .english) rfl rfl trivial (err39 (fromPhrase_length _ m h0 hm))
  | validateWord => exact occurs_at_start Real.hashes (.mnemonicValidate _ .english) rfl rfl trivial (err39 v2)
  | validateChecksum => exact occurs_at_start Real.hashes (.mnemonicValidate _ .english) rfl rfl trivial (err39 v1)
  | validateLength m h0 hm =>
    exact occurs_at_start Real.hashes (.mnemonicValidate _ .english) rfl rfl trivial (err39 (validate_length _ m h0 hm))
  | bitsWord => exact occurs_at_start Real.hashes (.getBits .english _) rfl rfl trivial (err39 v5)
  | sizeWords m hm => exact occurs_at_start Real.hashes (.sizeForWordCount m) rfl rfl trivial (err39 (C16_mnemonic_types.2.2.1 m hm))
  | sizeKey m hm => exact occurs_at_start Real.hashes (.sizeForKeySize m) rfl rfl trivial (err39 (C16_mnemonic_types.2.2.2.1 m hm))
  | sizePhrase m h0 hm =>
    have hcount : (List.replicate (m - 1) ' ').count ' ' + 1 = m := by simp; omega
    have := (C17_for_phrase Real.hashes).2.2.2 (List.replicate (m - 1) ' ')
    rw [hcount] at this
    exact occurs_at_start Real.hashes (.sizeForPhrase _) rfl rfl trivial (err39 (this hm))
  | childNew => exact occurs_at_start Real.hashes (.childNew _ _) rfl rfl trivial (err32 path0.2.2.2)
  | childText => exact occurs_at_start Real.hashes (.childFromStr _) rfl rfl trivial (err32 path0.2.2.1)
  | pathStart => exact occurs_at_start Real.hashes (.pathFromStr _) rfl rfl trivial (err32 path0.1)
  | pathChild => exact occurs_at_start Real.hashes (.pathFromStr _) rfl rfl trivial (err32 path0.2.1)
  | version => exact occurs_at_start Real.hashes (.prefixTryFromVersion 0) rfl rfl trivial (err32 ver)
  | slice =>
    exact occurs_at_start Real.hashes (.prefixTryFromSlice []) rfl rfl trivial
      (err32 (((C46_prefixes Real.hashes).2.2.2.2.1 []).2 (by simp)))
  | keyText => exact occurs_at_start Real.hashes (.extendedKeyFromStr _) rfl rfl trivial (err32 txt.1)
  | keyBytes => exact occurs_at_start Real.hashes (.extendedKeyFromStr _) rfl rfl trivial (err32 txt.2)
  | seedLength => exact occurs_at_start Real.hashes (.xprvNew []) rfl rfl trivial (err32 seedShort)
  | seedBad => exact occurs_at_start (constHash 0) (.xprvNew _) rfl rfl trivial (err32 seedBad)
  | pathSeedLength => exact occurs_at_start Real.hashes (.xprvNewFromPath [] ⟨[]⟩) rfl rfl trivial (err32 (seedPath _ _ _ _ seedShort))
  | pathSeedBad => exact occurs_at_start (constHash 0) (.xprvNewFromPath _ ⟨[]⟩) rfl rfl trivial (err32 (seedPath _ _ _ _ seedBad))
  | pathSeedDepth =>
    have hI : IL (master (specHash (constHash 2)) (List.replicate 64 0)) = 2 := const_IL (v := 2) (by decide)
    have hm := C36_master_key (constHash 2) (List.replicate 64 0)
    obtain ⟨k, hk⟩ : ∃ k, XPrv.new (constHash 2) (List.replicate 64 0) = .ok k := by
      rcases hm.2.2.2 with h | h | h
      · exact h
      · exact absurd (hm.1.1 h) (by simp)
      · have := (hm.2.1.1 h).2
        rw [hI] at this
        exact absurd this (by decide)
    obtain ⟨_, _, _, hkey, _, hd, _⟩ := (hm.2.2.1 k).1 hk
    obtain ⟨c, h1, h2, _⟩ := long_path 255 (by omega) k hd (hkey.trans hI)
    refine occurs_at_start (constHash 2) (.xprvNewFromPath (List.replicate 64 0) ⟨List.replicate 255 ⟨0⟩ ++ [⟨0⟩]⟩) rfl rfl trivial
      (err32 (((C80_path_first_failure _).2.2 _ _ (.err .depth) (by simp)).2 (.inr ⟨k, hk, ?_⟩)))
    exact ((C80_path_first_failure _).1 k _ (.err .depth) (by simp)).2 ⟨List.replicate 255 ⟨0⟩, ⟨0⟩, [], c, rfl, h1,
      ((C35_derive_child_outcome_partial _ c ⟨0⟩).2 _).2 (.inl ⟨h2, rfl⟩)⟩
  | xprvText =>
    exact occurs_at_start Real.hashes (.xprvFromStr "xprv0".toList) rfl rfl trivial (err32 (by unfold XPrv.fromStr; rw [txt.1]; rfl))
  | xprvBytes =>
    exact occurs_at_start Real.hashes (.xprvFromStr "3QJmnh".toList) rfl rfl trivial (err32 (by unfold XPrv.fromStr; rw [txt.2]; rfl))
  | xprvKey => exact occurs_at_start Real.hashes (.xprvFromStr badText) rfl rfl trivial (err32 bt1)
  | xprvOf =>
    refine occurs_with_extended 3 .xprvTryFrom (fun _ => rfl) (fun _ => rfl) (fun _ => trivial) (err32 ?_)
    decide +kernel
  | xprvDepth => exact occurs_with_key Real.hashes deepKey (.xprvDeriveChild deepKey ⟨0⟩) rfl (by simp [Call.uses]) trivial (err32 (prvDepth _))
  | xprvZero => exact occurs_with_key _ exKey (.xprvDeriveChild exKey ⟨0⟩) rfl (by simp [Call.uses]) trivial (err32 prvZero)
  | xprvPathDepth =>
    exact occurs_with_key Real.hashes deepKey (.xprvDeriveFromPath deepKey ⟨[⟨0⟩]⟩) rfl (by simp [Call.uses]) trivial
      (err32 (onePrv _ _ _ _ (prvDepth _)))
  | xprvPathZero =>
    exact occurs_with_key _ exKey (.xprvDeriveFromPath exKey ⟨[⟨0⟩]⟩) rfl (by simp [Call.uses]) trivial (err32 (onePrv _ _ _ _ prvZero))
  | xpubText =>
    exact occurs_at_start Real.hashes (.xpubFromStr "xprv0".toList) rfl rfl trivial (err32 (by unfold XPub.fromStr; rw [txt.1]; rfl))
  | xpubBytes =>
    exact occurs_at_start Real.hashes (.xpubFromStr "3QJmnh".toList) rfl rfl trivial (err32 (by unfold XPub.fromStr; rw [txt.2]; rfl))
  | xpubKey => exact occurs_at_start Real.hashes (.xpubFromStr badText) rfl rfl trivial (err32 bt2)
  | xpubOf =>
    refine occurs_with_extended 2 .xpubTryFrom (fun _ => rfl) (fun _ => rfl) (fun _ => trivial) (err32 ?_)
    decide +kernel
  | xpubHardened =>
    exact occurs_with_key Real.hashes exKey (.xpubDeriveChild exKey.publicKey ⟨0x80000000⟩) rfl (by simp [Call.uses]) trivial
      (err32 (pubHard _))
  | xpubDepth =>
    exact occurs_with_key Real.hashes deepKey (.xpubDeriveChild deepKey.publicKey ⟨0⟩) rfl (by simp [Call.uses]) trivial (err32 (pubDepth _))
  | xpubZero => exact occurs_with_key _ exKey (.xpubDeriveChild exKey.publicKey ⟨0⟩) rfl (by simp [Call.uses]) trivial (err32 pubZero)
  | xpubPathHardened =>
    exact occurs_with_key Real.hashes exKey (.xpubDeriveFromPath exKey.publicKey ⟨[⟨0x80000000⟩]⟩) rfl (by simp [Call.uses]) trivial
      (err32 (onePub _ _ _ _ (pubHard _)))
  | xpubPathDepth =>
    exact occurs_with_key Real.hashes deepKey (.xpubDeriveFromPath deepKey.publicKey ⟨[⟨0⟩]⟩) rfl (by simp [Call.uses]) trivial
      (err32 (onePub _ _ _ _ (pubDepth _)))
  | xpubPathZero =>
    exact occurs_with_key _ exKey (.xpubDeriveFromPath exKey.publicKey ⟨[⟨0⟩]⟩) rfl (by simp [Call.uses]) trivial
      (err32 (onePub _ _ _ _ pubZero))
  | message =>
    refine occurs_at_start Real.hashes (.ecdsaSign ⟨1, by decide, by decide⟩ []) rfl rfl trivial ?_
    simp only [Call.answer, (C51_input_length Real.hashes false 0 _ []).2 (by simp)]
    rfl

/-- C124, two errors that no program ever gets: `Bip39` of the BIP32 module and `InvalidEntropyLength` of the BIP39 module.  Of the
errors of libsecp256k1 only one is seen, from signing. -/
theorem C124_never_returned (E : Env) (hs : E.search = binarySearch ∨ E.search = binarySearch') (log : List Call) (held : List Obj)
    (h : History E log held) (c : Call) (hc : c.Allowed held) :
    c.answer E ≠ some (.err (.bip32 .bip39)) ∧ (∀ m t, c.answer E ≠ some (.err (.bip39 (.invalidEntropyLength m t)))) ∧
    (∀ e, c.answer E = some (.err (.sign e)) → e = .secp256k1Error .invalidInputLength) := by
  refine ⟨fun he => ?_, fun m t he => ?_, fun e he => ?_⟩
  · have := C124_errors_listed E hs log held h c hc _ he
    generalize fn c = f at this
    cases this
  · have := C124_errors_listed E hs log held h c hc _ he
    generalize fn c = f at this
    cases this
  · have := C124_errors_listed E hs log held h c hc _ he
    generalize fn c = f at this
    cases this
    rfl

-- One error of each of the three modules.
example : ErrorTable .fromEntropy (.bip39 (.invalidKeysize 136)) ∧ ErrorTable .xpubDeriveChild (.bip32 .childNumber) ∧
    ErrorTable .ecdsaSign (.sign (.secp256k1Error .invalidInputLength)) ∧ ¬ ErrorTable .xprvDeriveChild (.bip32 .childNumber) :=
  ⟨.entropySize 17 (by decide) (by decide), .xpubHardened, .message, fun h => by cases h⟩

end Kms.Props
