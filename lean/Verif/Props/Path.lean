import Verif.Proofs.ChildNumber
import Mathlib.Data.List.Forall2
/-
Properties C23 to C29: child numbers and derivation paths.
-/
namespace Kms.Props
open Kms.Bip32 Kms.Spec

/-- C23. `new(i, h)` succeeds exactly for `i < 2^31`, with a child number whose index is `i` and which is hardened
iff `h`, and reports `ChildNumber` otherwise; every child number is the result for exactly one pair `(i, h)`. -/
theorem C23_child_number_new :
    (∀ i h, (∃ c, ChildNumber.new i h = .ok c) ↔ i.toNat < 2 ^ 31) ∧
    (∀ i h c, ChildNumber.new i h = .ok c → c.index = i ∧ c.isHardened = h ∧
      c.n.toNat = i.toNat + (if h then 2 ^ 31 else 0)) ∧
    (∀ i h, 2 ^ 31 ≤ i.toNat → ChildNumber.new i h = .err .childNumber) ∧
    (∀ c : ChildNumber, ∃! p : BitVec 32 × Bool, ChildNumber.new p.1 p.2 = .ok c) := by
  have ok : ∀ i h, i.toNat < 2 ^ 31 →
      ChildNumber.new i h = .ok ⟨BitVec.ofNat 32 (i.toNat + if h then 2 ^ 31 else 0)⟩ := by
    intro i h hi; rw [ChildNumber.new_spec, if_pos hi]
  have bad : ∀ i h, 2 ^ 31 ≤ i.toNat → ChildNumber.new i h = .err .childNumber := by
    intro i h hi; rw [ChildNumber.new_spec, if_neg (by omega)]
  have spec : ∀ i h c, ChildNumber.new i h = .ok c → c.index = i ∧ c.isHardened = h ∧
      c.n.toNat = i.toNat + (if h then 2 ^ 31 else 0) := by
    intro i h c hc
    by_cases hi : i.toNat < 2 ^ 31
    · rw [ok i h hi] at hc
      simp only [Res.ok.injEq] at hc
      subst hc
      obtain ⟨e1, e2⟩ := ChildNumber.mk_index i.toNat h hi
      refine ⟨BitVec.eq_of_toNat_eq e1, e2, ?_⟩
      have := ChildNumber.toNat_eq ⟨BitVec.ofNat 32 (i.toNat + if h then 2 ^ 31 else 0)⟩
      rwa [e1, e2] at this
    · rw [bad i h (by omega)] at hc; simp at hc
  refine ⟨?_, spec, bad, ?_⟩
  · intro i h
    constructor
    · rintro ⟨c, hc⟩
      by_contra hi
      rw [bad i h (by omega)] at hc
      simp at hc
    · intro hi; exact ⟨_, ok i h hi⟩
  · intro c
    refine ⟨(c.index, c.isHardened), ?_, ?_⟩
    · have hi : c.index.toNat < 2 ^ 31 := by rw [ChildNumber.index_toNat]; omega
      simp only
      rw [ok _ _ hi, ← ChildNumber.toNat_eq]
      simp
    · rintro ⟨i, h⟩ hp
      obtain ⟨e1, e2, -⟩ := spec _ _ _ hp
      simp only at e1 e2
      rw [e1, e2]

-- the largest index, hardened, and the first one that is too large
example : ChildNumber.new 0x7FFFFFFF#32 true = .ok ⟨0xFFFFFFFF#32⟩ ∧ ChildNumber.new 0x80000000#32 false = .err .childNumber := by
  decide

/-- C24. The bytes of a child number are its value in base 256, most significant digit first; `from_bytes` and
`to_bytes` are inverse; comparing child numbers is comparing their bytes lexicographically. -/
theorem C24_child_number_bytes :
    (∀ c : ChildNumber, ChildNumber.fromBytes c.toBytes = c) ∧
    (∀ b : ByteArr 4, (ChildNumber.fromBytes b).toBytes = b) ∧
    (∀ c : ChildNumber, ∃ a b d e : UInt8, c.toBytes.1 = [a, b, d, e] ∧
      c.n.toNat = a.toNat * 2 ^ 24 + b.toNat * 2 ^ 16 + d.toNat * 2 ^ 8 + e.toNat) ∧
    (∀ c d : ChildNumber, c.n < d.n ↔ c.toBytes.1 < d.toBytes.1) := by
  have expl : ∀ c : ChildNumber, ∃ a b d e : UInt8, c.toBytes.1 = [a, b, d, e] ∧
      c.n.toNat = a.toNat * 2 ^ 24 + b.toNat * 2 ^ 16 + d.toNat * 2 ^ 8 + e.toNat := by
    intro c
    have hlt : c.n.toNat < 2 ^ 32 := c.n.isLt
    refine ⟨_, _, _, _, rfl, ?_⟩
    simp only [UInt8.toNat_ofNat']
    omega
  refine ⟨?_, ?_, expl, ?_⟩
  · intro c
    cases c with
    | mk n =>
      unfold ChildNumber.fromBytes ChildNumber.toBytes u32FromBE u32ToBE
      congr 1
      apply BitVec.eq_of_toNat_eq
      rw [BitVec.toNat_ofNat]
      simp only [beNat_natBE]
      have : n.toNat < 2 ^ 32 := n.isLt
      omega
  · rintro ⟨b, hb⟩
    unfold ChildNumber.fromBytes ChildNumber.toBytes u32FromBE u32ToBE
    apply Subtype.ext
    simp only [BitVec.toNat_ofNat]
    have := natBE_beNat b
    have hlt := beNat_lt b
    rw [hb] at this hlt
    rw [Nat.mod_eq_of_lt (by omega), this]
  · intro c d
    obtain ⟨a0, a1, a2, a3, ha, va⟩ := expl c
    obtain ⟨b0, b1, b2, b3, hb, vb⟩ := expl d
    rw [ha, hb, BitVec.lt_def, va, vb]
    simp only [List.cons_lt_cons_iff, UInt8.lt_iff_toNat_lt, List.lt_irrefl, and_false, or_false, ← UInt8.toNat_inj]
    have := a0.toNat_lt; have := a1.toNat_lt; have := a2.toNat_lt; have := a3.toNat_lt
    have := b0.toNat_lt; have := b1.toNat_lt; have := b2.toNat_lt; have := b3.toNat_lt
    omega

example : (ChildNumber.mk 0x8000002C#32).toBytes.1 = [0x80, 0, 0, 0x2C] := by decide

/-- C25. Printing a child number and parsing it back gives the child number. -/
theorem C25_child_number_text (c : ChildNumber) : ChildNumber.fromStr c.display = .ok c :=
  ChildNumber.fromStr_display c

example : (ChildNumber.mk 0x8000002C#32).display = "44'".toList := by decide

/-- C26. Parsing accepts exactly: an optional `+`, decimal digits of value below 2^31, an optional final apostrophe;
the child number then has that index and is hardened iff the apostrophe is there.  Every other string gives
`ChildNumber`; no string panics. -/
theorem C26_child_number_grammar (s : Str) :
    (∀ c, ChildNumber.fromStr s = .ok c ↔ ChildText s c.index.toNat c.isHardened) ∧
    ((∃ i h, ChildText s i h) ↔ ∃ c, ChildNumber.fromStr s = .ok c) ∧
    ((¬ ∃ i h, ChildText s i h) ↔ ChildNumber.fromStr s = .err .childNumber) := by
  have h1 := ChildNumber.fromStr_ok_iff s
  have h2 : (∃ i h, ChildText s i h) ↔ ∃ c, ChildNumber.fromStr s = .ok c := by
    constructor
    · rintro ⟨i, h, ht⟩
      have hi : i < 2 ^ 31 := by obtain ⟨_, _, _, _, hi, _⟩ := ht; exact hi
      obtain ⟨e1, e2⟩ := ChildNumber.mk_index i h hi
      exact ⟨_, (h1 ⟨BitVec.ofNat 32 (i + if h then 2 ^ 31 else 0)⟩).mpr (by rw [e1, e2]; exact ht)⟩
    · rintro ⟨c, hc⟩
      exact ⟨_, _, (h1 c).mp hc⟩
  refine ⟨h1, h2, ?_⟩
  rw [h2]
  constructor
  · intro h
    exact ChildNumber.fromStr_err s (fun c hc => h ⟨c, hc⟩)
  · rintro h ⟨c, hc⟩
    rw [h] at hc; simp at hc

/-- `+007'` is accepted, 2^31 and the empty string are not. -/
example : ChildNumber.fromStr "+007'".toList = .ok ⟨0x80000007#32⟩ := by decide
example : ChildNumber.fromStr "2147483648".toList = .err .childNumber := by decide
example : ChildNumber.fromStr "'".toList = .err .childNumber := by decide

/-- C27. Printing a path and parsing it back gives the path; distinct paths print differently. -/
theorem C27_path_text :
    (∀ p : DerivationPath, DerivationPath.fromStr p.display = .ok p) ∧
    (∀ p q : DerivationPath, p.display = q.display → p = q) := by
  have h : ∀ p : DerivationPath, DerivationPath.fromStr p.display = .ok p := by
    intro p
    unfold DerivationPath.fromStr
    rw [DerivationPath.display_eq, splitChar_join _ (by simp)]
    · simp only [ne_eq, not_true_eq_false, if_false]
      rw [(DerivationPath.parseAll_ok_iff _ p.path).mpr]
      · rfl
      · rw [List.forall₂_map_left_iff]
        exact List.forall₂_same.mpr (fun c _ => ChildNumber.fromStr_display c)
    · intro w hw
      simp only [List.mem_cons, List.mem_map] at hw
      rcases hw with rfl | ⟨c, _, rfl⟩
      · decide
      · exact ChildNumber.display_no_slash c
  refine ⟨h, ?_⟩
  intro p q hpq
  have := h p
  rw [hpq, h q] at this
  simpa using this.symm

example : (DerivationPath.mk [⟨0x8000002C#32⟩, ⟨60#32⟩]).display = "m/44'/60".toList := by decide +kernel

/-- C28. Parsing accepts exactly `m` followed by `/`-prefixed child number texts and returns those child numbers in
order.  Otherwise the error is `Decode` if the text up to the first `/` is not `m`, and `ChildNumber` if it is. -/
theorem C28_path_grammar (s : Str) :
    (∀ p, DerivationPath.fromStr s = .ok p ↔ ∃ segs, s = 'm' :: segs.flatMap (fun t => '/' :: t) ∧
      List.Forall₂ (fun t (c : ChildNumber) => ChildText t c.index.toNat c.isHardened) segs p.path) ∧
    (DerivationPath.fromStr s = .err .decode ↔ ¬ (s = ['m'] ∨ ['m', '/'] <+: s)) ∧
    (DerivationPath.fromStr s = .err .childNumber ↔
      (s = ['m'] ∨ ['m', '/'] <+: s) ∧ ∀ p, DerivationPath.fromStr s ≠ .ok p) ∧
    DerivationPath.fromStr s ≠ .panic := by
  have hj : ∀ (w : Str) (segs : List Str), join ['/'] (w :: segs) = w ++ segs.flatMap (fun t => '/' :: t) := by
    intro w segs
    induction segs generalizing w with
    | nil => simp
    | cons t segs ih =>
      rw [join_cons_cons, ih]
      simp
  have hsplit := join_splitChar '/' s
  -- the first piece is `m` exactly for `m` and `m/…`
  have hm : ∀ first rest, splitChar '/' s = first :: rest →
      (first = ['m'] ↔ (s = ['m'] ∨ ['m', '/'] <+: s)) := by
    intro first rest hs
    rw [hs, hj] at hsplit
    constructor
    · rintro rfl
      cases rest with
      | nil => left; rw [← hsplit]; rfl
      | cons t rest => right; rw [← hsplit]; exact ⟨t ++ rest.flatMap (fun t => '/' :: t), by simp⟩
    · rintro (h | ⟨r, h⟩)
      · rw [h, splitChar_no_sep (by decide)] at hs
        simp at hs
        exact hs.1.symm
      · rw [← h] at hs
        have : ['m', '/'] ++ r = ['m'] ++ '/' :: r := rfl
        rw [this, splitChar_append (by decide)] at hs
        simp at hs
        exact hs.1.symm
  have main : ∀ first rest, splitChar '/' s = first :: rest →
      DerivationPath.fromStr s = if first ≠ ['m'] then .err .decode else
        DerivationPath.parseAll rest >>= fun path => .ok ⟨path⟩ := by
    intro first rest hs
    unfold DerivationPath.fromStr
    rw [hs]
  cases hs : splitChar '/' s with
  | nil => exact absurd hs (splitChar_ne_nil '/' s)
  | cons first rest =>
    have hmain := main first rest hs
    have hfirst := hm first rest hs
    have hno : ∀ w ∈ first :: rest, '/' ∉ w := fun w hw => not_mem_of_mem_splitChar (hs ▸ hw)
    have hcls : (∃ cs, DerivationPath.parseAll rest = .ok cs) ∨ DerivationPath.parseAll rest = .err .childNumber := by
      by_cases h : ∃ cs, DerivationPath.parseAll rest = .ok cs
      · exact Or.inl h
      · exact Or.inr (DerivationPath.parseAll_err rest (fun cs hcs => h ⟨cs, hcs⟩))
    refine ⟨?_, ?_, ?_, ?_⟩
    · intro p
      rw [hmain]
      constructor
      · intro h
        split at h
        · simp at h
        · rename_i hf
          simp at hf
          simp only [Res.bind_eq_ok] at h
          obtain ⟨cs, hcs, h⟩ := h
          simp at h
          subst h
          refine ⟨rest, ?_, ?_⟩
          · rw [hs, hj, hf] at hsplit
            rw [← hsplit]; rfl
          · have := (DerivationPath.parseAll_ok_iff _ _).mp hcs
            exact this.imp (fun t c h => (ChildNumber.fromStr_ok_iff t c).mp h)
      · rintro ⟨segs, he, hf⟩
        have hf' : List.Forall₂ (fun t c => ChildNumber.fromStr t = .ok c) segs p.path :=
          hf.imp (fun t c h => (ChildNumber.fromStr_ok_iff t c).mpr h)
        have hnosl : ∀ t ∈ segs, '/' ∉ t := by
          intro t ht
          have h : ∃ i b, ChildText t i b := by
            obtain ⟨hl, hz⟩ := List.forall₂_iff_zip.mp hf
            obtain ⟨i, hi, rfl⟩ := List.getElem_of_mem ht
            refine ⟨_, _, hz (b := p.path[i]) (List.mem_iff_getElem.mpr ⟨i, by simp; omega, by simp⟩)⟩
          obtain ⟨i, b, h⟩ := h
          obtain ⟨sign, digits, hsg, hd, -, rfl⟩ := h
          have := decimal_chars hd
          intro hmem
          simp only [List.mem_append] at hmem
          rcases hmem with (h | h) | h
          · rcases hsg with rfl | rfl <;> simp at h
          · have := this _ h; revert this; decide
          · split at h <;> simp at h
        have hsp : splitChar '/' s = ['m'] :: segs := by
          have : s = join ['/'] (['m'] :: segs) := by rw [hj, he]; rfl
          rw [this, splitChar_join _ (by simp)]
          intro w hw
          rcases List.mem_cons.mp hw with rfl | hw
          · decide
          · exact hnosl w hw
        rw [hs] at hsp
        simp only [List.cons.injEq] at hsp
        obtain ⟨rfl, rfl⟩ := hsp
        rw [if_neg (by simp), (DerivationPath.parseAll_ok_iff _ _).mpr hf']
        rfl
    · rw [hmain, ← hfirst]
      by_cases hf : first = ['m']
      · rw [if_neg (by simp [hf])]
        rcases hcls with ⟨cs, h⟩ | h <;> simp [h, hf]
      · rw [if_pos hf]; simp [hf]
    · rw [hmain, ← hfirst]
      by_cases hf : first = ['m']
      · rw [if_neg (by simp [hf])]
        rcases hcls with ⟨cs, h⟩ | h <;> simp [h, hf]
      · rw [if_pos hf]; simp [hf]
    · rw [hmain]
      by_cases hf : first = ['m']
      · rw [if_neg (by simp [hf])]
        rcases hcls with ⟨cs, h⟩ | h <;> simp [h]
      · rw [if_pos hf]; simp

example : DerivationPath.fromStr "m/44'/60/0'".toList =
    .ok ⟨[⟨0x8000002C#32⟩, ⟨60#32⟩, ⟨0x80000000#32⟩]⟩ := by decide
example : DerivationPath.fromStr "m/".toList = .err .childNumber := by decide
example : DerivationPath.fromStr "M/0".toList = .err .decode := by decide

/-! ### operation sequences -/

/-- An operation on a path. -/
inductive PathOp where
  | push (c : ChildNumber)
  | extend (cs : List ChildNumber)
  | parent

/-- Apply an operation to the model's path; `parent` of the root leaves it. -/
def PathOp.run : PathOp → DerivationPath → DerivationPath
  | .push c, p => p.push c
  | .extend cs, p => p.extend cs
  | .parent, p => p.parent.getD p

/-- The same on the abstract sequence. -/
def PathOp.spec : PathOp → List ChildNumber → List ChildNumber
  | .push c, l => l ++ [c]
  | .extend cs, l => l ++ cs
  | .parent, l => l.dropLast

/-- C29. `parent` is `None` exactly for the root, `parent` after `push` gives the path back; after any sequence of
operations from the empty path, `iter`, `len` and `is_empty` report the sequence that those operations produce. -/
theorem C29_path_structure :
    (∀ p : DerivationPath, p.parent = none ↔ p.isEmpty = true) ∧
    (∀ (p : DerivationPath) c, (p.push c).parent = some p) ∧
    (∀ (p q : DerivationPath), p.parent = some q → ∃ c, p = q.push c) ∧
    (∀ ops : List PathOp,
      let p := ops.foldl (fun p op => op.run p) DerivationPath.default
      let l := ops.foldl (fun l op => op.spec l) []
      p.iter = l ∧ p.len = l.length ∧ (p.isEmpty = true ↔ l = [])) := by
  refine ⟨?_, ?_, ?_, ?_⟩
  · rintro ⟨l⟩
    unfold DerivationPath.parent DerivationPath.checkedSub DerivationPath.isEmpty
    cases l <;> simp
  · rintro ⟨l⟩ c
    unfold DerivationPath.parent DerivationPath.checkedSub DerivationPath.push
    simp
  · rintro ⟨l⟩ ⟨q⟩ h
    unfold DerivationPath.parent DerivationPath.checkedSub at h
    cases l using List.reverseRecOn with
    | nil => simp at h
    | append_singleton l c =>
      simp at h
      subst h
      exact ⟨c, rfl⟩
  · intro ops
    have step : ∀ (op : PathOp) (p : DerivationPath), (op.run p).path = op.spec p.path := by
      intro op p
      cases op with
      | push c => rfl
      | extend cs => rfl
      | parent =>
        unfold PathOp.run PathOp.spec DerivationPath.parent DerivationPath.checkedSub
        obtain ⟨l⟩ := p
        cases l with
        | nil => rfl
        | cons c l => simp [List.dropLast_eq_take]
    have key : ∀ (ops : List PathOp) (p : DerivationPath) (l : List ChildNumber), p.path = l →
        (ops.foldl (fun p op => op.run p) p).path = ops.foldl (fun l op => op.spec l) l := by
      intro ops
      induction ops with
      | nil => intro p l h; exact h
      | cons op ops ih => intro p l h; exact ih _ _ (by rw [step, h])
    have := key ops DerivationPath.default [] rfl
    simp only
    refine ⟨this, ?_, ?_⟩
    · unfold DerivationPath.len; rw [this]
    · unfold DerivationPath.isEmpty; rw [this, List.isEmpty_iff]

-- a history
example : let p := [PathOp.push ⟨44⟩, .push ⟨0⟩, .parent, .extend [⟨1⟩, ⟨2⟩]].foldl (fun p op => op.run p) DerivationPath.default
    p.iter = [⟨44⟩, ⟨1⟩, ⟨2⟩] ∧ p.len = 3 := by
  decide

end Kms.Props
