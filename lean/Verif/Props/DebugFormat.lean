import Verif.Props.Format
/-
C93: `Debug` through any formatter.
-/
namespace Kms.Props
open Spec Bip32 Bip39

/-- Whether a line starts after a text. -/
def nlText : Bool → Str → Bool
  | nl, [] => nl
  | _, c :: cs => nlText (c == '\n') cs

theorem padLines_append (nl : Bool) (a b : Str) : padLines nl (a ++ b) = padLines nl a ++ padLines (nlText nl a) b := by
  induction a generalizing nl with
  | nil => rfl
  | cons c a ih => simp [padLines, nlText, ih]

theorem nlText_append (nl : Bool) (a b : Str) : nlText nl (a ++ b) = nlText (nlText nl a) b := by
  induction a generalizing nl with
  | nil => rfl
  | cons c a ih => simp [nlText, ih]

/-- The calls made on the inner writer for some lines. -/
def linePieces : Bool → List Str → List Piece
  | _, [] => []
  | nl, l :: ls => (if nl then [.str "    ".toList] else []) ++ [.str l] ++ linePieces (l.getLast? == some '\n') ls

def nlLines : Bool → List Str → Bool
  | nl, [] => nl
  | _, l :: ls => nlLines (l.getLast? == some '\n') ls

theorem padStr_feed {W : Type} (wr : Writer W) (w : W) (nl : Bool) (ls : List Str) :
    (Fmt.padStr wr (w, nl) ls).1.1 = (feed wr w (linePieces nl ls)).1 ∧
    (Fmt.padStr wr (w, nl) ls).2 = (feed wr w (linePieces nl ls)).2 ∧
    ((feed wr w (linePieces nl ls)).2 = true → (Fmt.padStr wr (w, nl) ls).1.2 = nlLines nl ls) := by
  induction ls generalizing w nl with
  | nil => exact ⟨rfl, rfl, fun _ => rfl⟩
  | cons l ls ih =>
    cases nl
    · simp only [Fmt.padStr, Fmt.padLine, linePieces, Bool.false_eq_true, if_false, List.nil_append, List.singleton_append,
        feed, Piece.give, nlLines]
      rcases wr.writeStr w l with ⟨w', _ | _⟩
      · exact ⟨rfl, rfl, fun h => by cases h⟩
      · exact ih w' _
    · simp only [Fmt.padStr, Fmt.padLine, linePieces, if_true, List.cons_append, List.nil_append, feed, Piece.give, nlLines]
      rcases wr.writeStr w "    ".toList with ⟨w', _ | _⟩
      · exact ⟨rfl, rfl, fun h => by cases h⟩
      · simp only
        rcases wr.writeStr w' l with ⟨w'', _ | _⟩
        · exact ⟨rfl, rfl, fun h => by cases h⟩
        · exact ih w'' _

theorem splitInclusive_spec (s : Str) (nl : Bool) :
    (linePieces nl (splitInclusive s)).flatMap Piece.text = padLines nl s ∧ nlLines nl (splitInclusive s) = nlText nl s := by
  induction s generalizing nl with
  | nil => exact ⟨rfl, rfl⟩
  | cons c cs ih =>
    unfold splitInclusive
    by_cases hc : c = '\n'
    · subst hc
      obtain ⟨h1, h2⟩ := ih true
      rw [if_pos rfl]
      refine ⟨?_, ?_⟩
      · simp only [linePieces, List.flatMap_append, padLines]
        have : (([('\n' : Char)].getLast? == some '\n')) = true := rfl
        rw [this, h1]
        cases nl <;> simp [Piece.text]
      · simp only [nlLines, nlText]
        exact h2
    · rw [if_neg hc]
      have hb : (c == '\n') = false := beq_eq_false_iff_ne.2 hc
      obtain ⟨h1, h2⟩ := ih false
      rcases hs : splitInclusive cs with _ | ⟨l, ls⟩
      · rw [hs] at h1 h2
        simp only [linePieces, List.flatMap_nil, nlLines] at h1 h2
        refine ⟨?_, ?_⟩
        · simp only [linePieces, padLines, hb, ← h1]
          cases nl <;> simp [Piece.text]
        · simp only [nlLines, nlText, hb, ← h2]
          simpa using hc
      · rw [hs] at h1 h2
        simp only [linePieces, nlLines, Bool.false_eq_true, if_false, List.nil_append, List.flatMap_append] at h1 h2
        have hne : l ≠ [] := by
          intro e
          subst e
          have : ∀ (t : Str) x xs, splitInclusive t = x :: xs → x ≠ [] := by
            intro t
            induction t with
            | nil => intro x xs h; simp [splitInclusive] at h
            | cons d t _ =>
              intro x xs h
              unfold splitInclusive at h
              split at h
              · simp only [List.cons.injEq] at h; rw [← h.1]; simp
              · split at h <;> simp only [List.cons.injEq] at h <;> rw [← h.1] <;> simp
          exact this cs _ _ hs rfl
        have hl : (c :: l).getLast? = l.getLast? := by
          obtain ⟨d, l', rfl⟩ := List.exists_cons_of_ne_nil hne
          simp [List.getLast?_cons_cons]
        refine ⟨?_, ?_⟩
        · simp only [linePieces, padLines, hb, List.flatMap_append, ← h1, hl]
          cases nl <;> simp [Piece.text]
        · simp only [nlLines, nlText, hb, ← h2, hl]

/-- The calls made on the inner writer. -/
def padPieces : Bool → List Piece → List Piece
  | _, [] => []
  | nl, .str s :: ps => linePieces nl (splitInclusive s) ++ padPieces (nlText nl s) ps
  | nl, .chr c :: ps => (if nl then [.str "    ".toList] else []) ++ .chr c :: padPieces (c == '\n') ps

theorem padPieces_text (nl : Bool) (ps : List Piece) :
    (padPieces nl ps).flatMap Piece.text = padLines nl (ps.flatMap Piece.text) := by
  induction ps generalizing nl with
  | nil => rfl
  | cons p ps ih =>
    cases p with
    | str s => simp only [padPieces, List.flatMap_append, List.flatMap_cons, Piece.text, padLines_append, ih,
        (splitInclusive_spec s nl).1]
    | chr c =>
      simp only [padPieces, List.flatMap_append, List.flatMap_cons, Piece.text, List.singleton_append, padLines, ih]
      cases nl <;> simp [Piece.text]

theorem padPieces_feed {W : Type} (wr : Writer W) (w : W) (nl : Bool) (ps : List Piece) :
    (feed (Fmt.padAdapter wr) (w, nl) ps).1.1 = (feed wr w (padPieces nl ps)).1 ∧
    (feed (Fmt.padAdapter wr) (w, nl) ps).2 = (feed wr w (padPieces nl ps)).2 := by
  induction ps generalizing w nl with
  | nil => exact ⟨rfl, rfl⟩
  | cons p ps ih =>
    cases p with
    | str s =>
      have h := padStr_feed wr w nl (splitInclusive s)
      rw [(splitInclusive_spec s nl).2] at h
      simp only [feed, Piece.give, Fmt.padAdapter, padPieces, feed_append]
      rcases hp : Fmt.padStr wr (w, nl) (splitInclusive s) with ⟨⟨w', nl'⟩, ok⟩
      rcases hf : feed wr w (linePieces nl (splitInclusive s)) with ⟨w'', ok'⟩
      rw [hp, hf] at h
      obtain ⟨h1, h2, h3⟩ := h
      simp only at h1 h2 h3
      subst h1 h2
      cases ok
      · exact ⟨rfl, rfl⟩
      · rw [h3 rfl]
        exact ih _ _
    | chr c =>
      cases nl
      · simp only [feed, Piece.give, Fmt.padAdapter, padPieces, Bool.false_eq_true, if_false, List.nil_append]
        rcases wr.writeChar w c with ⟨w', _ | _⟩
        · exact ⟨rfl, rfl⟩
        · exact ih w' _
      · simp only [feed, Piece.give, Fmt.padAdapter, padPieces, if_true, List.cons_append, List.nil_append]
        rcases wr.writeStr w "    ".toList with ⟨w', _ | _⟩
        · exact ⟨rfl, rfl⟩
        · simp only
          rcases wr.writeChar w' c with ⟨w'', _ | _⟩
          · exact ⟨rfl, rfl⟩
          · exact ih w'' _

theorem writes_indented {f : Fmt} {t : Str} (h : Writes f t) : Writes (Fmt.indented f) (padLines true t) := by
  obtain ⟨ps, hp, h⟩ := h
  refine ⟨padPieces true ps, by rw [padPieces_text, hp], fun W wr w => ?_⟩
  obtain ⟨h1, h2⟩ := padPieces_feed wr w true ps
  simp only [Fmt.indented, h, h1, h2]

theorem writes_cast {f : Fmt} {a b : Str} (h : Writes f a) (e : a = b) : Writes f b := e ▸ h

theorem writes_padIntegral (spec : FmtSpec) (pre digits : Str) :
    Writes (Fmt.padIntegral spec pre digits)
      (numberText spec ((if spec.signPlus then ['+'] else []) ++ (if spec.alternate then pre else [])) digits) := by
  unfold numberText
  have hpre : Writes (Fmt.next (Fmt.each Fmt.chr (if spec.signPlus then ['+'] else [])) (if spec.alternate then Fmt.str pre else Fmt.done))
      ((if spec.signPlus then ['+'] else []) ++ (if spec.alternate then pre else [])) := by
    refine writes_next ?_ ?_
    · cases spec.signPlus
      · exact writes_done
      · exact writes_fill 1 '+'
    · cases spec.alternate
      · exact writes_done
      · exact writes_str _
  have hlen : (((if spec.signPlus then ['+'] else []) ++ (if spec.alternate then pre else [])) ++ digits).length =
      digits.length + (if spec.signPlus then ['+'] else []).length + (if spec.alternate then pre.length else 0) := by
    cases spec.alternate <;> cases spec.signPlus <;> simp <;> omega
  unfold Fmt.padIntegral
  simp only [hlen]
  generalize digits.length + (if spec.signPlus then ['+'] else []).length + (if spec.alternate then pre.length else 0) = width
  generalize Fmt.next (Fmt.each Fmt.chr (if spec.signPlus then ['+'] else [])) (if spec.alternate then Fmt.str pre else Fmt.done) =
    wp at hpre ⊢
  generalize (if spec.signPlus then ['+'] else []) ++ (if spec.alternate then pre else []) = head at hpre ⊢
  have plain := writes_next hpre (writes_str digits)
  have none_missing : head ++ digits =
      (if spec.zeroPad then head ++ List.replicate 0 '0' ++ digits
       else match spec.align with
        | some .left => head ++ digits ++ List.replicate 0 spec.fill
        | some .center => List.replicate (0 / 2) spec.fill ++ head ++ digits ++ List.replicate (0 - 0 / 2) spec.fill
        | _ => List.replicate 0 spec.fill ++ head ++ digits) := by
    split
    · simp
    · split <;> simp
  rcases hw : spec.width with _ | min
  · simp only [Option.getD, Nat.zero_sub]
    exact writes_cast plain none_missing
  · simp only [Option.getD]
    by_cases hm : width ≥ min
    · rw [if_pos hm, show min - width = 0 from by omega]
      exact writes_cast plain none_missing
    · rw [if_neg hm]
      cases hz : spec.zeroPad
      · simp only [Bool.false_eq_true, if_false]
        refine writes_cast (writes_padded plain) ?_
        have e : (min - width + 1) / 2 = min - width - (min - width) / 2 := by omega
        unfold Fmt.padCounts
        rcases spec.align with _ | (_ | _ | _) <;> simp [e]
      · simp only [if_true]
        refine writes_cast (writes_next hpre (writes_padded (writes_str digits))) ?_
        simp [Fmt.padCounts]

theorem writes_dInt (spec : FmtSpec) (n : Nat) : Writes (Fmt.dInt spec n) (number spec n) := by
  unfold Fmt.dInt number
  rcases h : spec.debugHex with _ | (_ | _)
  · exact writes_cast (writes_padIntegral spec [] (decimal n)) (by simp)
  · exact writes_padIntegral spec ['0', 'x'] _
  · exact writes_padIntegral spec ['0', 'x'] _

theorem writes_dStr (s : Str) : Writes (Fmt.dStr s) (debugStr s) :=
  writes_cast (writes_next (writes_chr _) (writes_next (writes_str s) (writes_chr _))) (by simp [debugStr])

/-- Fields that write their texts. -/
inductive FieldsWrite : List (Str × Fmt) → List (Str × Str) → Prop
  | nil : FieldsWrite [] []
  | cons {n f t fs ts} : Writes f t → FieldsWrite fs ts → FieldsWrite ((n, f) :: fs) ((n, t) :: ts)

theorem writes_fields_pretty {spec : FmtSpec} (hs : spec.alternate = true) {fs : List (Str × Fmt)} {ts : List (Str × Str)}
    (h : FieldsWrite fs ts) (first : Bool) : Writes (Fmt.fields spec first fs)
      ((if first ∧ ts ≠ [] then " {\n".toList else []) ++
        ts.flatMap (fun f => padLines true (f.1 ++ ": ".toList ++ f.2 ++ ",\n".toList))) := by
  induction h generalizing first with
  | nil => exact writes_cast writes_done (by simp)
  | @cons n f t fs ts h1 _ ih =>
    simp only [Fmt.fields, hs, if_true]
    have hf : Writes (if first then Fmt.str " {\n".toList else Fmt.done) (if first then " {\n".toList else []) := by
      cases first
      · exact writes_done
      · exact writes_str _
    have := writes_next (writes_next hf (writes_indented (writes_next (writes_str n)
      (writes_next (writes_str ": ".toList) (writes_next h1 (writes_str ",\n".toList)))))) (ih false)
    refine writes_cast this ?_
    simp

theorem join_cons (g a : Str) (l : List Str) : join g (a :: l) = a ++ l.flatMap (g ++ ·) := by
  unfold join
  have : ∀ (l : List Str) (acc : Str), l.foldl (fun buffer item => (buffer ++ g) ++ item) acc = acc ++ l.flatMap (g ++ ·) := by
    intro l
    induction l with
    | nil => simp
    | cons b l ih => intro acc; rw [List.foldl_cons, ih]; simp
  exact this l a

theorem writes_fields_plain {spec : FmtSpec} (hs : spec.alternate = false) {fs : List (Str × Fmt)} {ts : List (Str × Str)}
    (h : FieldsWrite fs ts) (first : Bool) : Writes (Fmt.fields spec first fs)
      (if first ∧ ts ≠ [] then " { ".toList ++ join ", ".toList (ts.map (fun f => f.1 ++ ": ".toList ++ f.2))
       else (ts.map (fun f => f.1 ++ ": ".toList ++ f.2)).flatMap (", ".toList ++ ·)) := by
  induction h generalizing first with
  | nil => exact writes_cast writes_done (by simp)
  | @cons n f t fs ts h1 _ ih =>
    simp only [Fmt.fields, hs, Bool.false_eq_true, if_false]
    have := writes_next (writes_next (writes_str (if first then " { ".toList else ", ".toList)) (writes_next (writes_str n)
      (writes_next (writes_str ": ".toList) h1))) (ih false)
    refine writes_cast this ?_
    cases first
    · simp
    · simp [join_cons]

theorem writes_dStruct (spec : FmtSpec) (name : Str) {fs : List (Str × Fmt)} {ts : List (Str × Str)} (h : FieldsWrite fs ts)
    (hne : ts ≠ []) : Writes (Fmt.dStruct spec name fs) (debugStruct spec.alternate name ts) := by
  unfold Fmt.dStruct debugStruct
  cases hs : spec.alternate
  · refine writes_cast (writes_next (writes_str name) (writes_next (writes_fields_plain hs h true) (writes_str " }".toList))) ?_
    simp [hne]
  · refine writes_cast (writes_next (writes_str name) (writes_next (writes_fields_pretty hs h true) (writes_str ['}']))) ?_
    simp [hne]

theorem writes_dTuple1 (spec : FmtSpec) (name : Str) {f : Fmt} {t : Str} (h : Writes f t) :
    Writes (Fmt.dTuple1 spec name f) (debugTuple1 spec.alternate name t) := by
  unfold Fmt.dTuple1 debugTuple1
  cases hs : spec.alternate
  · exact writes_cast (writes_next (writes_str name) (writes_next (writes_next (writes_str ['(']) h) (writes_str [')']))) (by simp)
  · refine writes_cast (writes_next (writes_str name) (writes_next (writes_next (writes_str "(\n".toList)
      (writes_indented (writes_next h (writes_str ",\n".toList)))) (writes_str [')']))) (by simp)

theorem writes_entries_plain {α : Type} {spec : FmtSpec} (hs : spec.alternate = false) {f : α → Fmt} {g : α → Str}
    (h : ∀ x, Writes (f x) (g x)) (xs : List α) (first : Bool) : Writes (Fmt.entries spec first (xs.map f))
      (if first then join ", ".toList (xs.map g) else (xs.map g).flatMap (", ".toList ++ ·)) := by
  induction xs generalizing first with
  | nil => exact writes_cast writes_done (by cases first <;> simp [join])
  | cons x xs ih =>
    simp only [List.map_cons, Fmt.entries, hs, Bool.false_eq_true, if_false]
    have hf : Writes (if first then Fmt.done else Fmt.str ", ".toList) (if first then [] else ", ".toList) := by
      cases first
      · exact writes_str _
      · exact writes_done
    refine writes_cast (writes_next (writes_next hf (h x)) (ih false)) ?_
    cases first
    · simp
    · simp [join_cons]

theorem writes_entries_pretty {α : Type} {spec : FmtSpec} (hs : spec.alternate = true) {f : α → Fmt} {g : α → Str}
    (h : ∀ x, Writes (f x) (g x)) (xs : List α) (first : Bool) : Writes (Fmt.entries spec first (xs.map f))
      ((if first ∧ xs ≠ [] then ['\n'] else []) ++ (xs.map g).flatMap (fun v => padLines true (v ++ ",\n".toList))) := by
  induction xs generalizing first with
  | nil => exact writes_cast writes_done (by simp)
  | cons x xs ih =>
    simp only [List.map_cons, Fmt.entries, hs, if_true]
    have hf : Writes (if first then Fmt.str ['\n'] else Fmt.done) (if first then ['\n'] else []) := by
      cases first
      · exact writes_done
      · exact writes_str _
    refine writes_cast (writes_next (writes_next hf (writes_indented (writes_next (h x) (writes_str ",\n".toList)))) (ih false)) ?_
    simp

theorem writes_dList {α : Type} (spec : FmtSpec) {f : α → Fmt} {g : α → Str} (h : ∀ x, Writes (f x) (g x)) (xs : List α) :
    Writes (Fmt.dList spec (xs.map f)) (debugList spec.alternate (xs.map g)) := by
  unfold Fmt.dList debugList
  cases hs : spec.alternate
  · exact writes_cast (writes_next (writes_str ['[']) (writes_next (writes_entries_plain hs h xs true) (writes_str [']']))) (by simp)
  · refine writes_cast (writes_next (writes_str ['[']) (writes_next (writes_entries_pretty hs h xs true) (writes_str [']']))) ?_
    cases xs <;> simp

theorem writes_child_debug (spec : FmtSpec) (c : ChildNumber) :
    Writes (c.debugFmt spec) (childText (number spec) spec.alternate c) :=
  writes_dTuple1 spec _ (writes_dInt spec _)

theorem writes_attrs_debug (spec : FmtSpec) (a : ExtendedKeyAttrs) :
    Writes (a.debugFmt spec) (attrsText (number spec) spec.alternate a) :=
  writes_dStruct spec _ (.cons (writes_dInt spec _) (.cons (writes_dList spec (fun b => writes_dInt spec _) _)
    (.cons (writes_child_debug spec _) (.cons (writes_dList spec (fun b => writes_dInt spec _) _) .nil)))) (by simp)

theorem number_plain (pretty : Bool) (n : Nat) : number { alternate := pretty } n = decimal n := by
  simp [number, numberText]

/-- A number in `k` hexadecimal digits. -/
def fixedHex : Nat → Nat → Str
  | 0, _ => []
  | k + 1, n => fixedHex k (n / 16) ++ [Nat.digitChar (n % 16)]

theorem fixedHex_zero (k : Nat) : fixedHex k 0 = List.replicate k '0' := by
  induction k with
  | zero => rfl
  | succ k ih => rw [fixedHex, Nat.zero_div, ih, List.replicate_succ']; rfl

theorem toDigits_pad (k n : Nat) (h : n < 16 ^ (k + 1)) :
    List.replicate (k + 1 - (Nat.toDigits 16 n).length) '0' ++ Nat.toDigits 16 n = fixedHex (k + 1) n := by
  induction k generalizing n with
  | zero =>
    rw [Nat.toDigits_of_lt_base (by simpa using h)]
    simp only [fixedHex, Nat.mod_eq_of_lt (show n < 16 by simpa using h)]
    simp
  | succ k ih =>
    by_cases hb : n < 16
    · rw [Nat.toDigits_of_lt_base hb, fixedHex, Nat.div_eq_of_lt hb, fixedHex_zero, Nat.mod_eq_of_lt hb]
      rfl
    · rw [Nat.toDigits_of_base_le (by decide) (by omega), fixedHex, ← ih (n / 16) (by rw [Nat.pow_succ] at h; omega)]
      simp

theorem digitChar_hex {n : Nat} (h : n < 16) : Nat.digitChar n = hexDigit false n := by
  revert n; decide

theorem hex_pad (v : BitVec 32) :
    List.replicate (8 - (Nat.toDigits 16 v.toNat).length) '0' ++ Nat.toDigits 16 v.toNat = hexBytes false (u32ToBE v).1 := by
  have hv := v.isLt
  rw [toDigits_pad 7 v.toNat (by omega)]
  have e1 : ∀ x : Nat, (UInt8.ofNat x).toNat = x % 256 := fun x => UInt8.toNat_ofNat'
  have d : ∀ x y : Nat, x % 16 = y % 16 → Nat.digitChar (x % 16) = hexDigit false (y % 16) := by
    intro x y h
    rw [h, digitChar_hex (Nat.mod_lt _ (by decide))]
  have q : ∀ x : Nat, x % 256 / 16 = x / 16 % 16 := by omega
  have r : ∀ x : Nat, x % 256 % 16 = x % 16 := by omega
  simp only [fixedHex, u32ToBE, natBE, hexBytes, List.flatMap_cons, List.flatMap_nil, hexByte, e1, q, r, List.nil_append,
    List.cons_append, List.append_nil, List.cons.injEq]
  refine ⟨d _ _ ?_, d _ _ ?_, d _ _ ?_, d _ _ ?_, d _ _ ?_, d _ _ ?_, d _ _ ?_, d _ _ ?_, trivial⟩ <;> omega

/-- **C93** Whatever the format specification and the writer: `Debug` of an extended private key makes the same calls for
all keys with the same attributes, so it reveals nothing about the key; it writes the attributes, with width, fill, sign
and `x?` applied to each number.  `Debug` of child numbers, paths and prefixes likewise; `Debug` of a mnemonic writes the
phrase in quotes.  With `{:?}` and `{:#?}` the texts are those of C48 and C78. -/
theorem C93_debug_any_formatter (spec : FmtSpec) :
    (∀ k k' : XPrv, k.attrs = k'.attrs → ∀ (W : Type) (wr : Writer W) (w : W),
      (k.debugFmt spec).run wr w = (k'.debugFmt spec).run wr w) ∧
    (∀ k : XPrv, Writes (k.debugFmt spec) (keyText (number spec) spec.alternate k.attrs)) ∧
    (∀ a : ExtendedKeyAttrs, Writes (a.debugFmt spec) (attrsText (number spec) spec.alternate a)) ∧
    (∀ c : ChildNumber, Writes (c.debugFmt spec) (childText (number spec) spec.alternate c)) ∧
    (∀ p : DerivationPath, Writes (p.debugFmt spec) (pathText (number spec) spec.alternate p.path)) ∧
    (∀ (p : Prefix) s, p.debug spec.alternate = .ok s → Writes (p.debugFmt spec) s) ∧
    (∀ m : Mnemonic, Writes (m.debugFmt spec) m.debug) ∧
    (∀ pretty, (∀ k : XPrv, Writes (k.debugFmt { alternate := pretty }) (k.debug pretty)) ∧
      (∀ c : ChildNumber, Writes (c.debugFmt { alternate := pretty }) (c.debug pretty)) ∧
      (∀ p : DerivationPath, Writes (p.debugFmt { alternate := pretty }) (p.debug pretty))) := by
  have key : ∀ spec (k : XPrv), Writes (k.debugFmt spec) (keyText (number spec) spec.alternate k.attrs) := fun spec k =>
    writes_dStruct spec _ (.cons (writes_dStr _) (.cons (writes_attrs_debug spec _) .nil)) (by simp)
  have path : ∀ spec (p : DerivationPath), Writes (p.debugFmt spec) (pathText (number spec) spec.alternate p.path) := fun spec p =>
    writes_dStruct spec _ (.cons (writes_dList spec (writes_child_debug spec) _) .nil) (by simp)
  refine ⟨?_, key spec, writes_attrs_debug spec, writes_child_debug spec, path spec, ?_, fun m => writes_dStr _, ?_⟩
  · intro k k' h W wr w
    unfold XPrv.debugFmt
    rw [h]
  · intro p s h
    unfold Prefix.debug at h
    unfold Prefix.debugFmt
    rcases hs : p.asStr with s' | e | _ <;> rw [hs] at h
    · have h : Res.ok _ = Res.ok s := h
      simp only [Res.ok.injEq] at h
      subst h
      refine writes_dStruct spec _ (.cons (writes_dStr s') (.cons ?_ .nil)) (by simp)
      refine writes_cast (writes_padIntegral _ _ _) ?_
      simp only [numberText, debugVersion, ← hex_pad]
      simp
    · cases h
    · cases h
  · intro pretty
    have hn : number { alternate := pretty } = decimal := funext (number_plain pretty)
    refine ⟨fun k => ?_, fun c => ?_, fun p => ?_⟩
    · have := key { alternate := pretty } k
      rw [hn] at this
      exact this
    · have := writes_child_debug { alternate := pretty } c
      rw [hn] at this
      exact this
    · have := path { alternate := pretty } p
      rw [hn] at this
      exact this

/-- `{:04x?}` of a path: numbers in four hexadecimal digits. -/
example : ((DerivationPath.mk [⟨0x2C⟩, ⟨1⟩]).debugFmt { width := some 4, zeroPad := true, debugHex := some false }).run
    (cappedWriter 200) [] = ("DerivationPath { path: [ChildNumber(002c), ChildNumber(0001)] }".toList, .ok ()) := by
  decide +kernel

/-- `{:#?}` of a path in a buffer of 40 characters fails in the middle of a line. -/
example : ((DerivationPath.mk [⟨0x2C⟩, ⟨1⟩]).debugFmt { alternate := true }).run (cappedWriter 40) [] =
    ("DerivationPath {\n    path: [\n        Chi".toList, .err ()) := by
  decide +kernel

/-- `{:#?}` of a prefix. -/
example : (Prefix.XPRV.debugFmt { alternate := true, width := some 20 }).run (cappedWriter 200) [] =
    ("Prefix {\n    chars: \"xprv\",\n    version: 0x0488ade4,\n}".toList, .ok ()) := by
  decide +kernel

end Kms.Props
