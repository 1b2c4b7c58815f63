import Verif.Model.LeakText
import Verif.Spec.LeakText
import Verif.Props.KeysMore
/-
C120: what writing and reading the text of an extended key shows.
-/
namespace Kms.Props
open Kms Bip32 Spec

namespace LeakText
open Base58

theorem mulAddSeen_val (mul base i : Nat) (ds : List Nat) (c : Nat) : (mulAddSeen mul base i ds c).1 = mulAdd mul base ds c := by
  induction ds generalizing i c with
  | nil => rfl
  | cons d ds ih => simp only [mulAddSeen, mulAdd, ih]

theorem pushCarrySeen_val (base cap fuel : Nat) (ds : List Nat) (c : Nat) :
    (pushCarrySeen base cap fuel ds c).1 = pushCarry base cap fuel ds c := by
  induction fuel generalizing ds c with
  | zero => rfl
  | succ fuel ih =>
    simp only [pushCarrySeen, pushCarry]
    split
    · split
      · rfl
      · exact ih _ _
    · rfl

theorem stepSeen_val (mul base cap : Nat) (ds : List Nat) (v : Nat) :
    (stepSeen mul base cap ds v).1 = step mul base cap ds v := by
  simp only [stepSeen, step, pushCarrySeen_val, mulAddSeen_val]

theorem pushZerosSeen_val {α : Type} (isZero : α → Bool) (cap i : Nat) (input : List α) (ds : List Nat) :
    (pushZerosSeen isZero cap i input ds).1 = pushZeros cap (input.takeWhile isZero).length ds := by
  induction input generalizing i ds with
  | nil => rfl
  | cons v rest ih =>
    by_cases hz : isZero v = true
    · rw [List.takeWhile_cons_of_pos hz]
      simp only [pushZerosSeen, hz, if_true, List.length_cons, pushZeros]
      split
      · rfl
      · exact ih _ _
    · rw [List.takeWhile_cons_of_neg hz]
      simp [pushZerosSeen, hz, pushZeros]

theorem encodeLoopSeen_val (cap i : Nat) (input : Bytes) (ds : List Nat) :
    (encodeLoopSeen cap i input ds).1 = encodeLoop cap input ds := by
  induction input generalizing i ds with
  | nil => rfl
  | cons v rest ih =>
    simp only [encodeLoopSeen, encodeLoop, stepSeen_val]
    rcases step 256 58 cap ds v.toNat with ⟨ds', _ | _⟩
    · rfl
    · exact ih _ _

theorem encodeIntoSeen_val (cap : Nat) (input : Bytes) : (encodeIntoSeen cap input).1 = encodeInto cap input := by
  simp only [encodeIntoSeen, encodeInto, encodeLoopSeen_val]
  rcases encodeLoop cap input [] with ⟨ds, _ | _⟩
  · rfl
  · simp only [pushZerosSeen_val]
    rcases pushZeros cap _ ds with ⟨ds', _ | _⟩ <;> rfl

theorem decodeLoopSeen_val (cap i : Nat) (input : Str) (ds : List Nat) :
    (decodeLoopSeen cap i input ds).1 = decodeLoop cap input ds := by
  induction input generalizing i ds with
  | nil => rfl
  | cons c rest ih =>
    simp only [decodeLoopSeen, decodeLoop]
    split
    · rfl
    · cases charVal c with
      | none => rfl
      | some v =>
        simp only [stepSeen_val]
        rcases step 58 256 cap ds v with ⟨ds', _ | _⟩
        · rfl
        · exact ih _ _

theorem decodeIntoSeen_val (cap : Nat) (input : Str) : (decodeIntoSeen cap input).1 = decodeInto cap input := by
  simp only [decodeIntoSeen, decodeInto, decodeLoopSeen_val]
  rcases decodeLoop cap input [] with ⟨ds, _ | e⟩
  · simp only [pushZerosSeen_val]
    rcases pushZeros cap _ ds with ⟨ds', _ | _⟩ <;> rfl
  · rfl

theorem decodeCheckSeen_val (H : Hashes) (cap : Nat) (input : Str) :
    (decodeCheckSeen H cap input).1 = decodeCheck H cap input := by
  simp only [decodeCheckSeen, decodeCheck, decodeIntoSeen_val]
  rcases decodeInto cap input with ⟨buf, len | e | _⟩
  · dsimp only
    split
    · rfl
    · split <;> rfl
  · rfl
  · rfl

theorem toStringSeen_out (H : Hashes) (k : ExtendedKey) : (k.toStringSeen H).out = k.toString H := by
  simp only [ExtendedKey.toStringSeen, ExtendedKey.toString, ExtendedKey.writeBase58, encodeCheckSeen, encodeIntoSeen_val,
    encodeCheck]
  cases encodeInto ExtendedKey.MAX_BASE58_SIZE (k.serialize ++ checksum H k.serialize) <;> rfl

theorem fromStrSeen_out (H : Hashes) (s : Str) : (ExtendedKey.fromStrSeen H s).out = ExtendedKey.fromStr H s := by
  simp only [ExtendedKey.fromStrSeen, ExtendedKey.fromStr, ExtendedKey.fromStrBuf, decodeCheckSeen_val]
  rcases decodeCheck H (ExtendedKey.BYTE_SIZE + 4) s with ⟨buf, len | e | _⟩
  · dsimp only
    split
    · rfl
    · cases ExtendedKey.parsePrefix s buf with
      | err e => rfl
      | panic => rfl
      | ok pfx =>
        dsimp only
        rcases buf[4]? with _ | a <;> rcases tryIntoArr 4 Error.decode (List.take 4 (List.drop 5 buf)) with b | b | _ <;>
          rcases tryIntoArr 4 Error.decode (List.take 4 (List.drop 9 buf)) with c | c | _ <;>
          rcases tryIntoArr 32 Error.decode (List.take 32 (List.drop 13 buf)) with d | d | _ <;>
          rcases tryIntoArr 33 Error.decode (List.take 33 (List.drop 45 buf)) with e | e | _ <;> rfl
  · rfl
  · rfl

theorem digitsSeen_append (a b : List Ev) : digitsSeen (a ++ b) = digitsSeen a ++ digitsSeen b := by simp [digitsSeen]

theorem textRead_append (a b : List Ev) : textRead (a ++ b) = textRead a ++ textRead b := by simp [textRead]

theorem mulAddSeen_view (mul base i : Nat) (ds : List Nat) (c : Nat) :
    digitsSeen (mulAddSeen mul base i ds c).2 = [] ∧ textRead (mulAddSeen mul base i ds c).2 = [] := by
  induction ds generalizing i c with
  | nil => exact ⟨rfl, rfl⟩
  | cons d ds ih =>
    simp only [mulAddSeen, digitsSeen_append, textRead_append, ih, List.append_nil]
    exact ⟨rfl, rfl⟩

theorem pushCarrySeen_view (base cap fuel : Nat) (ds : List Nat) (c : Nat) :
    digitsSeen (pushCarrySeen base cap fuel ds c).2 = [] ∧ textRead (pushCarrySeen base cap fuel ds c).2 = [] := by
  induction fuel generalizing ds c with
  | zero => exact ⟨rfl, rfl⟩
  | succ fuel ih =>
    simp only [pushCarrySeen]
    split
    · split
      · exact ⟨rfl, rfl⟩
      · simp only [digitsSeen_append, textRead_append, ih, List.append_nil]
        exact ⟨rfl, rfl⟩
    · exact ⟨rfl, rfl⟩

theorem stepSeen_view (mul base cap : Nat) (ds : List Nat) (v : Nat) :
    digitsSeen (stepSeen mul base cap ds v).2 = [] ∧ textRead (stepSeen mul base cap ds v).2 = [] := by
  simp only [stepSeen, digitsSeen_append, textRead_append, mulAddSeen_view, pushCarrySeen_view, List.append_nil, and_self]

theorem pushZerosSeen_view {α : Type} (isZero : α → Bool) (cap i : Nat) (input : List α) (ds : List Nat) :
    digitsSeen (pushZerosSeen isZero cap i input ds).2 = [] ∧ textRead (pushZerosSeen isZero cap i input ds).2 = [] := by
  induction input generalizing i ds with
  | nil => exact ⟨rfl, rfl⟩
  | cons v rest ih =>
    simp only [pushZerosSeen]
    split
    · split
      · exact ⟨rfl, rfl⟩
      · simp only [digitsSeen_append, textRead_append, ih, List.append_nil]
        exact ⟨rfl, rfl⟩
    · exact ⟨rfl, rfl⟩

theorem encodeLoopSeen_view (cap i : Nat) (input : Bytes) (ds : List Nat) :
    digitsSeen (encodeLoopSeen cap i input ds).2 = [] := by
  induction input generalizing i ds with
  | nil => rfl
  | cons v rest ih =>
    simp only [encodeLoopSeen]
    split
    · simp only [digitsSeen_append, stepSeen_view, ih, List.append_nil]
      rfl
    · simp only [digitsSeen_append, stepSeen_view, List.append_nil]
      rfl

theorem alphabetSeen_view (i : Nat) (ds : List Nat) : digitsSeen (alphabetSeen i ds) = ds := by
  induction ds generalizing i with
  | nil => rfl
  | cons d ds ih => simp only [alphabetSeen, digitsSeen_append, ih]; rfl

theorem reverseSeen_view (n : Nat) : digitsSeen (reverseSeen n) = [] ∧ textRead (reverseSeen n) = [] := by
  unfold reverseSeen
  induction List.range (n / 2) with
  | nil => exact ⟨rfl, rfl⟩
  | cons i l ih =>
    simp only [List.flatMap_cons, digitsSeen_append, textRead_append, ih, List.append_nil]
    exact ⟨rfl, rfl⟩

theorem wipeSeen_view (n : Nat) : digitsSeen (ExtendedKey.wipeSeen n) = [] ∧ textRead (ExtendedKey.wipeSeen n) = [] := by
  simp [digitsSeen, textRead, ExtendedKey.wipeSeen]

theorem pushCarry_lt {base : Nat} (hb : 0 < base) (cap fuel : Nat) (ds : List Nat) (c : Nat) (h : ∀ d ∈ ds, d < base) :
    ∀ d ∈ (pushCarry base cap fuel ds c).1, d < base := by
  induction fuel generalizing ds c with
  | zero => exact h
  | succ fuel ih =>
    simp only [pushCarry]
    split
    · split
      · exact h
      · apply ih
        intro d hd
        rcases List.mem_append.mp hd with hd | hd
        · exact h d hd
        · rw [List.mem_singleton.mp hd]; exact Nat.mod_lt _ hb
    · exact h

theorem encodeLoop_lt (cap : Nat) (input : Bytes) (ds : List Nat) (h : ∀ d ∈ ds, d < 58) :
    ∀ d ∈ (encodeLoop cap input ds).1, d < 58 := by
  induction input generalizing ds with
  | nil => exact h
  | cons v rest ih =>
    have hs : ∀ d ∈ (step 256 58 cap ds v.toNat).1, d < 58 := pushCarry_lt (by decide) _ _ _ _ (mulAdd_lt (by decide) _ _)
    simp only [encodeLoop]
    split
    · rename_i ds' e
      rw [e] at hs
      exact ih ds' hs
    · rename_i ds' e
      rw [e] at hs
      exact hs

theorem pushZeros_lt (cap k : Nat) (ds : List Nat) (h : ∀ d ∈ ds, d < 58) : ∀ d ∈ (pushZeros cap k ds).1, d < 58 := by
  induction k generalizing ds with
  | zero => exact h
  | succ k ih =>
    simp only [pushZeros]
    split
    · exact h
    · apply ih
      intro d hd
      rcases List.mem_append.mp hd with hd | hd
      · exact h d hd
      · rw [List.mem_singleton.mp hd]; decide

theorem keyCharacters_getD {d : Nat} (h : d < 58) : keyCharacters.getD d '?' = alphabet.getD d '1' := by
  have : ∀ d < 58, keyCharacters.getD d '?' = alphabet.getD d '1' := by decide +kernel
  exact this d h

theorem encodeIntoSeen_view (cap : Nat) (input : Bytes) (s : Str) (h : encodeInto cap input = .ok s) :
    ((digitsSeen (encodeIntoSeen cap input).2).map fun d => keyCharacters.getD d '?').reverse = s := by
  have hl : ∀ d ∈ (encodeLoop cap input []).1, d < 58 := encodeLoop_lt cap input [] (by simp)
  have hv := encodeLoopSeen_view cap 0 input []
  simp only [encodeInto] at h
  rcases hc : encodeLoop cap input [] with ⟨ds, _ | _⟩
  · rw [hc] at h; simp at h
  · rw [hc] at h hl
    have hz := pushZeros_lt cap (input.takeWhile (· = 0)).length ds hl
    rcases hp : pushZeros cap (input.takeWhile (· = 0)).length ds with ⟨ds', _ | _⟩
    · simp [hp] at h
    · simp only [hp] at hz
      have e1 : (encodeLoopSeen cap 0 input []).1 = (ds, true) := by rw [encodeLoopSeen_val, hc]
      have e2 : (pushZerosSeen (· = 0) cap 0 input ds).1 = (ds', true) := by rw [pushZerosSeen_val, hp]
      have hs : s = (ds'.map (fun d => alphabet.getD d '1')).reverse := by simp [hp] at h; simp [h]
      have hd : digitsSeen (encodeIntoSeen cap input).2 = ds' := by
        simp only [encodeIntoSeen, e1, e2, digitsSeen_append, hv, pushZerosSeen_view, reverseSeen_view, alphabetSeen_view,
          List.nil_append, List.append_nil]
      rw [hd, hs]
      exact congrArg List.reverse (List.map_congr_left fun d hd => keyCharacters_getD (hz d hd))

theorem decodeLoopSeen_view (cap i : Nat) (input : Str) (ds : List Nat) :
    textRead (decodeLoopSeen cap i input ds).2 <+: input ∧
    ((decodeLoop cap input ds).2 = none → textRead (decodeLoopSeen cap i input ds).2 = input) := by
  induction input generalizing i ds with
  | nil => exact ⟨List.nil_prefix, fun _ => rfl⟩
  | cons c rest ih =>
    have hc : Char.ofNat c.toNat = c := Char.ofNat_toNat c
    simp only [decodeLoopSeen, decodeLoop]
    split
    · exact ⟨List.nil_prefix, fun h => by simp at h⟩
    · cases charVal c with
      | none =>
        refine ⟨?_, fun h => by simp at h⟩
        show [Char.ofNat c.toNat] <+: c :: rest
        rw [hc]
        exact ⟨rest, rfl⟩
      | some v =>
        simp only [stepSeen_val]
        rcases step 58 256 cap ds v with ⟨ds', _ | _⟩
        · refine ⟨?_, fun h => by simp at h⟩
          simp only [textRead_append, stepSeen_view, List.append_nil]
          show [Char.ofNat c.toNat] <+: c :: rest
          rw [hc]
          exact ⟨rest, rfl⟩
        · obtain ⟨h1, h2⟩ := ih (i + 1) ds'
          simp only [textRead_append, stepSeen_view, List.append_nil]
          show Char.ofNat c.toNat :: textRead (decodeLoopSeen cap (i + 1) rest ds').2 <+: c :: rest ∧
            ((decodeLoop cap rest ds').2 = none → Char.ofNat c.toNat :: textRead (decodeLoopSeen cap (i + 1) rest ds').2 = c :: rest)
          rw [hc]
          exact ⟨List.prefix_cons_inj c |>.mpr h1, fun h => by rw [h2 h]⟩

theorem decodeCheckSeen_view (H : Hashes) (cap : Nat) (s : Str) :
    textRead (decodeCheckSeen H cap s).2 <+: s ∧
    (∀ n, (decodeCheck H cap s).2 = .ok n → textRead (decodeCheckSeen H cap s).2 = s) := by
  obtain ⟨h1, h2⟩ := decodeLoopSeen_view cap 0 s []
  have key : textRead (decodeCheckSeen H cap s).2 = textRead (decodeLoopSeen cap 0 s []).2 := by
    have hi : textRead (decodeIntoSeen cap s).2 = textRead (decodeLoopSeen cap 0 s []).2 := by
      simp only [decodeIntoSeen]
      split
      · rfl
      · split <;> simp only [textRead_append, pushZerosSeen_view, reverseSeen_view, List.append_nil]
    rw [← hi]
    simp only [decodeCheckSeen]
    split
    · split
      · rw [textRead_append]; exact List.append_nil _
      · split <;> (rw [textRead_append]; exact List.append_nil _)
    · rfl
  rw [key]
  refine ⟨h1, fun n hn => h2 ?_⟩
  simp only [decodeCheck, decodeInto] at hn
  rcases hd : decodeLoop cap s [] with ⟨ds, _ | e⟩
  · rfl
  · rw [hd] at hn; simp at hn

end LeakText
open LeakText

/-- C120: who sees the memory accesses of writing an extended key reads its text off them. -/
theorem C120_writing_shows_the_text (H : Hashes) :
    (∀ k : ExtendedKey, (k.toStringSeen H).out = k.toString H ∧ k.toString H = .ok (textWritten (k.toStringSeen H).view)) ∧
    (∀ k k' : ExtendedKey, (k.toStringSeen H).view = (k'.toStringSeen H).view ↔ k.toString H = k'.toString H) ∧
    (∀ (k k' : XPrv) p p', ((k.toExtendedKey p).toStringSeen H).view = ((k'.toExtendedKey p').toStringSeen H).view →
      k = k' ∧ p.version = p'.version) := by
  have h1 : ∀ k : ExtendedKey, k.toString H = .ok (textWritten (k.toStringSeen H).view) := by
    intro k
    obtain ⟨s, hw, hs, -⟩ := C41_write_base58_total H k
    rw [hs, textWritten]
    have he : Base58.encodeInto ExtendedKey.MAX_BASE58_SIZE (k.serialize ++ Base58.checksum H k.serialize) = .ok s := by
      have := hs
      simp only [ExtendedKey.toString, ExtendedKey.writeBase58, Base58.encodeCheck] at this
      cases he : Base58.encodeInto ExtendedKey.MAX_BASE58_SIZE (k.serialize ++ Base58.checksum H k.serialize) with
      | ok t => rw [he] at this; simpa using this
      | err e => rw [he] at this; simp at this
      | panic => rw [he] at this; simp at this
    simp only [ExtendedKey.toStringSeen, Base58.encodeCheckSeen, encodeIntoSeen_val, he, digitsSeen_append, wipeSeen_view,
      List.append_nil]
    congr 1
    rw [← encodeIntoSeen_view _ _ s he]
    congr 2
    exact (List.append_nil _).symm
  have h2 : ∀ k k' : ExtendedKey, (k.toStringSeen H).view = (k'.toStringSeen H).view ↔ k.toString H = k'.toString H := by
    intro k k'
    refine ⟨fun h => by rw [h1 k, h1 k', h], fun h => ?_⟩
    obtain ⟨hv, ha, hk⟩ := (C72_text_separates H).1 k k' h
    have : k.serialize = k'.serialize := by
      simp only [ExtendedKey.serialize, Prefix.toBytes, hv, ha, hk]
    simp only [ExtendedKey.toStringSeen, this]
  exact ⟨fun k => ⟨toStringSeen_out H k, h1 k⟩, h2, fun k k' p p' h => (C72_text_separates H).2.1 k k' p p' ((h2 _ _).mp h)⟩

/-- C120 is not vacuous: the text read off for the example key is 111 characters long, starts with "xprv" and can be read. -/
example (H : Hashes) : (textWritten ((exKey.toExtendedKey .XPRV).toStringSeen H).view).length = 111 ∧
    (textWritten ((exKey.toExtendedKey .XPRV).toStringSeen H).view).take 4 = "xprv".toList := by
  obtain ⟨s, -, hs, -, -, -, h⟩ := C41_write_base58_total H (exKey.toExtendedKey .XPRV)
  have e := ((C120_writing_shows_the_text H).1 (exKey.toExtendedKey .XPRV)).2
  rw [hs] at e
  simp only [Res.ok.injEq] at e
  obtain ⟨h1, h2⟩ := h (by decide)
  rw [← e]
  refine ⟨h1, ?_⟩
  have : (exKey.toExtendedKey .XPRV).pfx.asStr = .ok "xprv".toList := by decide
  rw [this] at h2
  simpa using h2.symm

/-- C120: who sees the memory accesses of reading text as an extended key reads off the text, up to where it is refused. -/
theorem C120_reading_shows_the_text (H : Hashes) (s : Str) :
    (ExtendedKey.fromStrSeen H s).out = ExtendedKey.fromStr H s ∧
    textRead (ExtendedKey.fromStrSeen H s).view <+: s ∧
    (∀ k, ExtendedKey.fromStr H s = .ok k → textRead (ExtendedKey.fromStrSeen H s).view = s) := by
  obtain ⟨h1, h2⟩ := decodeCheckSeen_view H (ExtendedKey.BYTE_SIZE + 4) s
  have key : textRead (ExtendedKey.fromStrSeen H s).view =
      textRead (Base58.decodeCheckSeen H (ExtendedKey.BYTE_SIZE + 4) s).2 := by
    simp only [ExtendedKey.fromStrSeen]
    split
    · rw [textRead_append]; exact List.append_nil _
    · rfl
    · split
      · rw [textRead_append]; exact List.append_nil _
      · split
        · rw [textRead_append]; exact List.append_nil _
        · rw [textRead_append]; exact List.append_nil _
        · split
          · simp only [textRead_append, wipeSeen_view, List.append_nil]; exact List.append_nil _
          · rfl
  refine ⟨fromStrSeen_out H s, by rw [key]; exact h1, fun k hk => ?_⟩
  rw [key]
  rcases hd : Base58.decodeCheck H (ExtendedKey.BYTE_SIZE + 4) s with ⟨buf, n | e | _⟩
  · exact h2 n (by rw [hd])
  · simp [ExtendedKey.fromStr, ExtendedKey.fromStrBuf, hd] at hk
  · simp [ExtendedKey.fromStr, ExtendedKey.fromStrBuf, hd] at hk

-- Reading stops at a character that is not a digit, and before one that is not ASCII.
example (H : Hashes) : textRead (ExtendedKey.fromStrSeen H "xprv0abc".toList).view = "xprv0".toList ∧
    textRead (ExtendedKey.fromStrSeen H "xprvßabc".toList).view = "xprv".toList := by
  constructor <;> rfl

-- The text of the example key is shown whole when it is read.
example (H : Hashes) : ∃ s, exKey.toString H .XPRV = .ok s ∧ textRead (ExtendedKey.fromStrSeen H s).view = s := by
  obtain ⟨s, hs, hr⟩ := C38_xprv_round_trip H exKey .XPRV (by decide)
  refine ⟨s, hs, ?_⟩
  unfold XPrv.fromStr at hr
  cases hf : ExtendedKey.fromStr H s with
  | ok k => exact (C120_reading_shows_the_text H s).2.2 k hf
  | err e => rw [hf] at hr; exact absurd hr (by simp)
  | panic => rw [hf] at hr; exact absurd hr (by simp)

end Kms.Props
