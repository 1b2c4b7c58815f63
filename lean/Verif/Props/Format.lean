import Verif.Spec.Format
import Verif.Proofs.ExtendedKey
/-
C92: text written through any formatter.
-/
namespace Kms.Props
open Spec Bip32 Bip39

theorem feed_append {W : Type} (wr : Writer W) (w : W) (a b : List Piece) :
    feed wr w (a ++ b) = match feed wr w a with
      | (w', true) => feed wr w' b
      | (w', false) => (w', false) := by
  induction a generalizing w with
  | nil => rfl
  | cons p ps ih =>
    simp only [List.cons_append, feed]
    rcases p.give wr w with ⟨w', _ | _⟩
    · rfl
    · exact ih _

theorem writes_done : Writes Fmt.done [] := ⟨[], rfl, fun _ _ _ => rfl⟩

theorem writes_str (s : Str) : Writes (Fmt.str s) s := by
  refine ⟨[.str s], by simp [Piece.text], fun W wr w => ?_⟩
  simp only [Fmt.str, feed, Piece.give]
  rcases wr.writeStr w s with ⟨w', _ | _⟩ <;> rfl

theorem writes_chr (c : Char) : Writes (Fmt.chr c) [c] := by
  refine ⟨[.chr c], by simp [Piece.text], fun W wr w => ?_⟩
  simp only [Fmt.chr, feed, Piece.give]
  rcases wr.writeChar w c with ⟨w', _ | _⟩ <;> rfl

theorem writes_next {a b : Fmt} {s t : Str} (ha : Writes a s) (hb : Writes b t) : Writes (Fmt.next a b) (s ++ t) := by
  obtain ⟨ps, hp, h1⟩ := ha
  obtain ⟨qs, hq, h2⟩ := hb
  refine ⟨ps ++ qs, by rw [List.flatMap_append, hp, hq], fun W wr w => ?_⟩
  simp only [Fmt.next, h1, h2, feed_append]
  rcases feed wr w ps with ⟨w', _ | _⟩ <;> rfl

theorem writes_each {α : Type} {f : α → Fmt} {g : α → Str} (h : ∀ x, Writes (f x) (g x)) (xs : List α) :
    Writes (Fmt.each f xs) (xs.flatMap g) := by
  induction xs with
  | nil => exact writes_done
  | cons x xs ih => exact writes_next (h x) ih

theorem writes_fill (n : Nat) (c : Char) : Writes (Fmt.each Fmt.chr (List.replicate n c)) (List.replicate n c) := by
  have := writes_each writes_chr (List.replicate n c)
  rwa [show (fun x : Char => [x]) = (fun x => [id x]) from rfl, ← List.map_eq_flatMap, List.map_id] at this

theorem writes_padded {spec : FmtSpec} {n : Nat} {d : Align} {body : Fmt} {s : Str} (h : Writes body s) :
    Writes (Fmt.padded spec n d body)
      (List.replicate (Fmt.padCounts spec n d).1 spec.fill ++ (s ++ List.replicate (Fmt.padCounts spec n d).2 spec.fill)) :=
  writes_next (writes_fill _ _) (writes_next h (writes_fill _ _))

theorem writes_pad (spec : FmtSpec) (s : Str) : Writes (Fmt.pad spec s) (justify spec s) := by
  have cast : ∀ {f : Fmt} {a b : Str}, Writes f a → a = b → Writes f b := fun h e => e ▸ h
  have core : ∀ t : Str, ∀ w : Nat,
      Writes (if t.length ≥ w then Fmt.str t else Fmt.padded spec (w - t.length) .left (Fmt.str t))
        (match spec.align with
          | some .right => List.replicate (w - t.length) spec.fill ++ t
          | some .center =>
            List.replicate ((w - t.length) / 2) spec.fill ++ t ++
              List.replicate (w - t.length - (w - t.length) / 2) spec.fill
          | _ => t ++ List.replicate (w - t.length) spec.fill) := by
    intro t w
    split
    · rename_i hw
      rw [show w - t.length = 0 from by omega]
      exact cast (writes_str t) (by split <;> simp)
    · refine cast (writes_padded (writes_str t)) ?_
      have e : (w - t.length + 1) / 2 = w - t.length - (w - t.length) / 2 := by omega
      unfold Fmt.padCounts
      rcases spec.align with _ | (_ | _ | _) <;> simp [e]
  unfold Fmt.pad justify
  rcases hw : spec.width with _ | w <;> rcases hp : spec.precision with _ | p <;> simp only [Option.getD]
  · exact cast (writes_str s) (by split <;> simp)
  · exact cast (writes_str _) (by split <;> simp)
  · exact core s w
  · exact core _ w

theorem writes_decimal (n : Nat) : Writes (Fmt.decimal {} n) (decimal n) := by
  have := writes_next (writes_next (writes_each writes_chr []) writes_done) (writes_str (decimal n))
  simpa [Fmt.decimal, Fmt.padIntegral] using this

theorem writes_hex (upper : Bool) (b : UInt8) : Writes (Fmt.hexU8 upper Fmt.spec02 b) (hexByte upper b) := by
  unfold Fmt.hexU8 Fmt.padIntegral Fmt.hexDigits Fmt.spec02
  by_cases h : b.toNat < 16
  · have h0 : hexDigit upper (b.toNat / 16) = '0' := by
      rw [Nat.div_eq_of_lt h]; rfl
    have := writes_next (writes_next (writes_each writes_chr []) writes_done)
      (writes_padded (spec := { fill := '0', align := some .right, zeroPad := true, width := some 2 }) (n := 1) (d := .right)
        (writes_str [hexDigit upper (b.toNat % 16)]))
    simpa [h, hexByte, h0, Fmt.padCounts] using this
  · have := writes_next (writes_next (writes_each writes_chr []) writes_done) (writes_str (hexByte upper b))
    simpa [h, hexByte] using this

theorem writes_hexLoop (upper : Bool) (spec : FmtSpec) (bytes : Bytes) :
    Writes (hexLoop upper spec bytes) ((if spec.alternate then ['0', 'x'] else []) ++ hexBytes upper bytes) := by
  refine writes_next ?_ (writes_each (writes_hex upper) bytes)
  cases spec.alternate
  · exact writes_done
  · exact writes_str _

theorem writes_child (c : ChildNumber) (spec : FmtSpec) : Writes (c.fmt spec) c.display := by
  refine writes_next (writes_decimal _) ?_
  cases c.isHardened
  · exact writes_done
  · exact writes_str _

theorem path_display (p : DerivationPath) : p.display = ['m'] ++ p.path.flatMap (fun c => ['/'] ++ c.display) := by
  have h : ∀ (l : List ChildNumber) (acc : Str), l.foldl (fun out c => out ++ ('/' :: c.display)) acc =
      acc ++ l.flatMap (fun c => ['/'] ++ c.display) := by
    intro l
    induction l with
    | nil => simp
    | cons c l ih => intro acc; simp [ih]
  exact h p.path ['m']

/-- A writer that keeps what it is given ends with the whole text if the method returns `Ok`, and with a beginning of it
if the method returns `Err`. -/
theorem feed_keeps {W : Type} {wr : Writer W} {view : W → Str} (h : Keeps wr view) (ps : List Piece) (w : W) :
    ∃ t, view (feed wr w ps).1 = view w ++ t ∧ t <+: ps.flatMap Piece.text ∧
      ((feed wr w ps).2 = true → t = ps.flatMap Piece.text) := by
  induction ps generalizing w with
  | nil => exact ⟨[], by simp [feed]⟩
  | cons p ps ih =>
    have hp : ∃ t, view (p.give wr w).1 = view w ++ t ∧ t <+: p.text ∧ ((p.give wr w).2 = true → t = p.text) := by
      cases p with
      | str s => exact h.str w s
      | chr c => exact h.chr w c
    simp only [feed, List.flatMap_cons]
    rcases hg : p.give wr w with ⟨w', _ | _⟩ <;> rw [hg] at hp <;> obtain ⟨t, h1, h2, h3⟩ := hp
    · exact ⟨t, h1, h2.trans (List.prefix_append _ _), fun hb => by cases hb⟩
    · obtain ⟨t', h1', h2', h3'⟩ := ih w'
      have := h3 rfl
      subst this
      refine ⟨p.text ++ t', ?_, (List.prefix_append_right_inj _).2 h2', ?_⟩
      · show view (feed wr w' ps).1 = _
        rw [h1', h1, List.append_assoc]
      · intro hb
        rw [h3' hb]

/-- **C92** Whatever the format specification and the writer behind the formatter: child numbers, paths, prefixes,
extended keys, phrase sizes and errors write the text of `{}`; the hexadecimal forms of mnemonics and seeds write their
digits, after `0x` with the `#` flag; `Debug` of a seed writes `{:#X}`; `Display` of a mnemonic obeys width, fill,
alignment and precision.  No extended key is refused. -/
theorem C92_any_formatter (spec : FmtSpec) :
    (∀ c : ChildNumber, Writes (c.fmt spec) c.display) ∧
    (∀ p : DerivationPath, Writes (p.fmt spec) p.display) ∧
    (∀ (p : Prefix) s, p.asStr = .ok s → Writes (p.fmt spec) s) ∧
    (∀ H (k : ExtendedKey), ∃ s, k.toString H = .ok s ∧ Writes (k.fmt H spec) s) ∧
    (∀ e : Bip32.Error, Writes (e.fmt spec) e.display) ∧
    (∀ e : ErrorKind, Writes (e.fmt spec) e.display) ∧
    (∀ t : MnemonicType, Writes (t.fmt spec) t.display) ∧
    (∀ (m : Mnemonic) upper, Writes (m.hexFmt upper spec) (m.fmtHex upper spec.alternate)) ∧
    (∀ (s : Seed) upper, Writes (s.hexFmt upper spec) (s.fmtHex upper spec.alternate)) ∧
    (∀ s : Seed, Writes (s.debugFmt spec) (s.fmtHex true true)) ∧
    (∀ m : Mnemonic, Writes (m.fmt spec) (justify spec m.phrase)) := by
  refine ⟨fun c => writes_child c spec, ?_, ?_, ?_, fun e => writes_str _, ?_, ?_, fun m u => writes_hexLoop _ _ _,
    fun s u => writes_hexLoop _ _ _, fun s => writes_hexLoop _ _ _, fun m => writes_pad _ _⟩
  · intro p
    rw [path_display]
    exact writes_next (writes_str _) (writes_each (fun c => writes_next (writes_str _) (writes_child c {})) _)
  · intro p s h
    unfold Prefix.fmt
    rw [h]
    exact writes_str s
  · intro H k
    obtain ⟨s, h, _⟩ := ExtendedKey.writeBase58_ok H k
    refine ⟨s, by rw [ExtendedKey.toString, h], ?_⟩
    rw [ExtendedKey.fmt, h]
    exact writes_str s
  · intro e
    cases e with
    | invalidChecksum => exact writes_str _
    | invalidWord => exact writes_str _
    | invalidKeysize n => exact writes_next (writes_str _) (writes_decimal n)
    | invalidWordLength n => exact writes_next (writes_str _) (writes_decimal n)
    | invalidEntropyLength n t =>
      have := writes_next (writes_str "invalid entropy length ".toList)
        (writes_next (writes_decimal n) (writes_next (writes_str "bits for mnemonic type ".toList) (writes_str t.debug)))
      rw [← List.append_assoc, ← List.append_assoc] at this
      exact this
  · intro t
    have := writes_next (writes_decimal t.wordCount) (writes_next (writes_str " words (".toList)
      (writes_next (writes_decimal t.entropyBits) (writes_str "bits)".toList)))
    rw [← List.append_assoc, ← List.append_assoc] at this
    exact this

/-- **C92** With a writer that keeps what it is given, a method that writes a text leaves all of it when it returns `Ok`
and a beginning of it when it returns `Err`, and never panics. -/
theorem C92_failing_writer {W : Type} (wr : Writer W) (view : W → Str) (hk : Keeps wr view) (f : Fmt) (text : Str)
    (hf : Writes f text) (w : W) :
    (f.run wr w).2 ≠ .panic ∧
    ((f.run wr w).2 = .ok () → view (f.run wr w).1 = view w ++ text) ∧
    (∃ t, t <+: text ∧ view (f.run wr w).1 = view w ++ t) := by
  obtain ⟨ps, hp, h⟩ := hf
  obtain ⟨t, h1, h2, h3⟩ := feed_keeps hk ps w
  rw [h, ← hp]
  refine ⟨?_, ?_, t, h2, h1⟩
  · cases (feed wr w ps).2 <;> simp [result]
  · intro hb
    rw [h1, h3 (by cases hr : (feed wr w ps).2 <;> simp_all [result])]

/-- A buffer of limited capacity: it takes what fits and fails when something does not. -/
def cappedWriter (cap : Nat) : Writer Str where
  writeStr w s := ((w ++ s).take (max cap w.length), decide ((w ++ s).length ≤ max cap w.length))
  writeChar w c := ((w ++ [c]).take (max cap w.length), decide ((w ++ [c]).length ≤ max cap w.length))

theorem cappedWriter_keeps (cap : Nat) : Keeps (cappedWriter cap) id := by
  have h : ∀ w s : Str, ∃ t, (w ++ s).take (max cap w.length) = w ++ t ∧ t <+: s ∧
      (decide ((w ++ s).length ≤ max cap w.length) = true → t = s) := by
    intro w s
    refine ⟨s.take (max cap w.length - w.length), ?_, List.take_prefix _ _, ?_⟩
    · rw [List.take_append, List.take_of_length_le (by omega)]
    · intro h
      rw [decide_eq_true_eq, List.length_append] at h
      rw [List.take_of_length_le (by omega)]
  exact ⟨h, fun w c => h w [c]⟩

/-- The path m/44'/1 in a buffer of four characters: `Err` after `m/44`; in one of seven: all of it. -/
example : ((DerivationPath.mk [⟨0x8000002C⟩, ⟨1⟩]).fmt { width := some 30 }).run (cappedWriter 4) [] = ("m/44".toList, .err ()) ∧
    ((DerivationPath.mk [⟨0x8000002C⟩, ⟨1⟩]).fmt { width := some 30 }).run (cappedWriter 7) [] = ("m/44'/1".toList, .ok ()) := by
  decide

/-- `{:*^8.4}` of a mnemonic cuts its phrase to four characters and puts two stars on each side. -/
example : ((Mnemonic.mk ['a', 'b', 'l', 'e', ' ', 'b'] .english []).fmt
    { fill := '*', align := some .center, width := some 8, precision := some 4 }).run (cappedWriter 100) [] =
    ("**able**".toList, .ok ()) := by
  decide

/-- `{:#x}` of a seed with a byte below 16. -/
example : (Seed.hexFmt false ⟨[0x0a, 0xff]⟩ { alternate := true, width := some 1 }).run (cappedWriter 100) [] =
    ("0x0aff".toList, .ok ()) := by
  decide

end Kms.Props
