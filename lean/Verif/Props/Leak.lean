import Verif.Model.Leak
import Verif.Spec.Leak
import Verif.Props.GenericKeys
/-
C117: what comparing extended private keys and deriving children shows to someone who sees timing and memory accesses.
-/
namespace Kms.Props
open Kms.Bip32 Kms.Spec Kms.Subtle

/-- What one assertion about a `Choice` shows if it holds. -/
def assertView (debug : Bool) : List Ev := if debug then [.branch true] else []

/-- A truth value as subtle stores it. -/
def bit8 (b : Bool) : BitVec 8 := if b then 1 else 0

theorem bit8_and (a b : Bool) : bit8 a &&& bit8 b = bit8 (a && b) := by cases a <;> cases b <;> decide

theorem choiceFrom_bit {ε : Type} (debug b : Bool) :
    (choiceFrom debug (bit8 b) : Seen ε _) = ⟨.ok (bit8 b), assertView debug⟩ := by
  cases debug <;> cases b <;> rfl

/-- The top bit of `x | -x` tells whether `x` is 0. -/
theorem topBit (w : Nat) (hw : 0 < w) (x : BitVec w) : (x ||| -x) >>> (w - 1) = if x = 0#w then 0#w else 1#w := by
  have hm : (x ||| -x).msb = !decide (x = 0#w) := by
    rw [BitVec.msb_or, BitVec.msb_neg]
    by_cases h0 : x = 0#w
    · subst h0; simp
    · by_cases hi : x = BitVec.intMin w
      · subst hi
        simp [BitVec.msb_intMin, hw, h0]
      · cases hx : x.msb <;> simp [h0, hi]
  apply BitVec.eq_of_toNat_eq
  rw [BitVec.toNat_ushiftRight, Nat.shiftRight_eq_div_pow]
  rw [BitVec.msb_eq_decide] at hm
  have hlt := (x ||| -x).isLt
  have hpow : 2 ^ w = 2 * 2 ^ (w - 1) := by
    conv_lhs => rw [show w = (w - 1) + 1 by omega, Nat.pow_succ]
    omega
  have h1 : 1 < 2 ^ w := Nat.one_lt_two_pow (by omega)
  split
  · rename_i h0
    simp only [h0, decide_true, Bool.not_true, decide_eq_false_iff_not, not_le] at hm
    rw [h0]
    simp only [BitVec.toNat_zero]
    rw [Nat.div_eq_zero_iff]
    right
    simp at hm ⊢
  · rename_i h0
    simp only [h0, decide_false, Bool.not_false, decide_eq_true_eq] at hm
    rw [BitVec.toNat_ofNat, Nat.mod_eq_of_lt h1]
    apply Nat.div_eq_of_lt_le <;> omega

theorem intCtEq_eq {ε : Type} (debug : Bool) (w : Nat) (hw : 0 < w) (a b : BitVec w) :
    (intCtEq debug a b : Seen ε _) = ⟨.ok (bit8 (a == b)), assertView debug⟩ := by
  rw [intCtEq, topBit w hw]
  have hx : (a ^^^ b = 0#w) ↔ a = b := BitVec.xor_eq_zero_iff
  have h1 : 1 < 2 ^ w := Nat.one_lt_two_pow (by omega)
  have : ((if a ^^^ b = 0#w then 0#w else 1#w) ^^^ 1#w).setWidth 8 = bit8 (a == b) := by
    by_cases h : a = b
    · rw [if_pos (hx.2 h)]
      subst h
      simp only [BitVec.zero_xor, beq_self_eq_true, bit8, if_true]
      apply BitVec.eq_of_toNat_eq
      simp [BitVec.toNat_setWidth, Nat.mod_eq_of_lt h1]
    · rw [if_neg (fun hh => h (hx.1 hh)), BitVec.xor_self]
      simp [bit8, h]
  rw [this, choiceFrom_bit]

/-- What the loop over `n` elements from element `i` on shows. -/
def loopView (debug : Bool) (na nb : String) : Nat → Nat → List Ev
  | _, 0 => [.branch false]
  | i, n + 1 => [.branch true, .load na i, .load nb i] ++ (assertView debug ++ loopView debug na nb (i + 1) n)

theorem sliceLoop_eq {ε : Type} (debug : Bool) (na nb : String) (l : List (UInt8 × UInt8)) (i : Nat) (x : Bool) :
    (sliceLoop debug na nb i l (bit8 x) : Seen ε _) =
      ⟨.ok (bit8 (x && l.all (fun p => p.1 == p.2))), loopView debug na nb i l.length⟩ := by
  induction l generalizing i x with
  | nil => simp [sliceLoop, loopView, bind, Seen.bind, Seen.emit, pure]
  | cons p l ih =>
    obtain ⟨p, q⟩ := p
    have hpq : (p.toBitVec == q.toBitVec) = (p == q) := by
      rw [Bool.eq_iff_iff, beq_iff_eq, beq_iff_eq]
      exact ⟨fun h => UInt8.eq_of_toBitVec_eq h, fun h => by rw [h]⟩
    simp only [sliceLoop, bind, Seen.bind, Seen.emit, intCtEq_eq debug 8 (by decide), bit8_and, ih, List.length_cons, loopView, hpq,
      List.all_cons, Bool.and_assoc]

theorem all_zip_eq : ∀ (a b : Bytes), a.length = b.length → (a.zip b).all (fun p => p.1 == p.2) = (a == b)
  | [], [], _ => rfl
  | x :: a, y :: b, h => by
    rw [List.zip_cons_cons, List.all_cons, all_zip_eq a b (by simpa using h)]
    rfl

theorem sliceCtEq_eq {ε : Type} (debug : Bool) (na nb : String) (a b : Bytes) (h : a.length = b.length) :
    (sliceCtEq debug na nb a b : Seen ε _) =
      ⟨.ok (bit8 (a == b)), .branch false :: (loopView debug na nb 0 a.length ++ assertView debug)⟩ := by
  have hl := sliceLoop_eq (ε := ε) debug na nb (a.zip b) 0 true
  rw [show bit8 true = 1 from rfl] at hl
  simp only [sliceCtEq, Bool.false_eq_true, if_false, bind, Seen.bind, Seen.emit, hl, Bool.true_and, all_zip_eq a b h,
    choiceFrom_bit, List.length_zip, ← h, Nat.min_self, List.cons_append, List.nil_append, bne_self_eq_false]

/-- What a comparison shows after the key has been serialised twice. -/
def eqView (debug : Bool) : List Ev :=
  .branch false :: (loopView debug "key_a" "key_b" 0 32 ++ assertView debug) ++
  (assertView debug ++ assertView debug) ++
  (.branch false :: (loopView debug "self.parent_fingerprint" "other.parent_fingerprint" 0 4 ++ assertView debug) ++ assertView debug) ++
  (assertView debug ++ assertView debug) ++
  (.branch false :: (loopView debug "self.chain_code" "other.chain_code" 0 32 ++ assertView debug) ++ assertView debug) ++
  ((List.range 32).map (Ev.store "key_a") ++ (List.range 32).map (Ev.store "key_b")) ++ assertView debug

theorem eqSeen_eq {K : KeyImpl} (debug : Bool) (V : KeyView K) (a b : GPrv K) :
    a.eqSeen debug V b = ⟨.ok (a.eq b), V.toBytes a.privateKey ++ V.toBytes a.privateKey ++ eqView debug⟩ := by
  have hd : (a.attrs.depth.toBitVec == b.attrs.depth.toBitVec) = (a.attrs.depth == b.attrs.depth) := by
    rw [Bool.eq_iff_iff, beq_iff_eq, beq_iff_eq]
    exact ⟨fun h => UInt8.eq_of_toBitVec_eq h, fun h => by rw [h]⟩
  have ha {n : Nat} (x y : ByteArr n) : (x.1 == y.1) = (x == y) := by
    rw [Bool.eq_iff_iff, beq_iff_eq, beq_iff_eq]; exact ⟨fun h => Subtype.ext h, fun h => by rw [h]⟩
  have hl {n : Nat} (x y : ByteArr n) : x.1.length = y.1.length := by rw [x.2, y.2]
  have hb (x : Bool) : (bit8 x != 0) = x := by cases x <;> rfl
  simp only [GPrv.eqSeen, GPrv.ctEqSeen, Subtle.toBool, bitAnd, zeroizeSeen, bind, Seen.bind, Seen.emit, pure,
    sliceCtEq_eq debug _ _ _ _ (hl _ _), intCtEq_eq debug 8 (by decide), intCtEq_eq debug 32 (by decide), bit8_and, choiceFrom_bit,
    hd, ha, hb, (a.toBytes).2, a.attrs.parentFingerprint.2, a.attrs.chainCode.2]
  refine congrArg₂ Seen.mk rfl ?_
  simp only [eqView, List.append_assoc, List.append_nil, List.cons_append]

theorem sameKind_ok {ε α β : Type} {x : Res ε α} {y : Res ε β} {a : α} (h : SameKind x y) (hx : x = .ok a) : ∃ b, y = .ok b := by
  cases h with
  | ok _ b => exact ⟨b, rfl⟩
  | err => exact nomatch hx
  | panic => exact nomatch hx

/-- The outcome is that of the model without views. -/
theorem deriveChildSeen_out {K : KeyImpl} (H : Hashes) (V : KeyView K) (k : GPrv K) (i : ChildNumber) :
    (k.deriveChildSeen H V i).out = k.deriveChild H i := by
  have h1 : (((H.hmacSha512 k.attrs.chainCode.1 (k.hmacInput i)).1).take KEY_SIZE).length = 32 := by
    simp [(H.hmacSha512 k.attrs.chainCode.1 (k.hmacInput i)).2, KEY_SIZE]
  have h2 : (((H.hmacSha512 k.attrs.chainCode.1 (k.hmacInput i)).1).drop KEY_SIZE).length = 32 := by
    simp [(H.hmacSha512 k.attrs.chainCode.1 (k.hmacInput i)).2, KEY_SIZE]
  rw [GPrv.deriveChild, GPrv.deriveChildSeen]
  cases hd : checkedSucc k.attrs.depth with
  | none => rfl
  | some d =>
    cases hh : i.isHardened <;>
    · simp only [bind, Seen.bind, Seen.emit, Seen.tryOp, Res.ofOption, Res.bind, tryIntoArr_ok h1, tryIntoArr_ok h2, pure, if_true,
        Bool.false_eq_true, if_false]
      cases K.deriveChild k.privateKey ⟨_, h1⟩ <;> rfl

theorem deriveChildSeen_view {K : KeyImpl} (H H' : Hashes) (V : KeyView K) (hV : Discreet V) (k k' : GPrv K) (i : ChildNumber)
    (hd : k.attrs.depth = k'.attrs.depth) (hs : SameKind (k.deriveChild H i) (k'.deriveChild H' i)) :
    (k.deriveChildSeen H V i).view = (k'.deriveChildSeen H' V i).view := by
  have h1 : ∀ (H : Hashes) (k : GPrv K), (((H.hmacSha512 k.attrs.chainCode.1 (k.hmacInput i)).1).take KEY_SIZE).length = 32 := by
    intro H k
    simp [(H.hmacSha512 k.attrs.chainCode.1 (k.hmacInput i)).2, KEY_SIZE]
  have h2 : ∀ (H : Hashes) (k : GPrv K), (((H.hmacSha512 k.attrs.chainCode.1 (k.hmacInput i)).1).drop KEY_SIZE).length = 32 := by
    intro H k
    simp [(H.hmacSha512 k.attrs.chainCode.1 (k.hmacInput i)).2, KEY_SIZE]
  rw [GPrv.deriveChildSeen, GPrv.deriveChildSeen]
  rw [GPrv.deriveChild, GPrv.deriveChild] at hs
  rw [← hd] at hs ⊢
  cases hc : checkedSucc k.attrs.depth with
  | none => rfl
  | some d =>
    simp only [hc, bind, Res.ofOption, Res.bind, tryIntoArr_ok (h1 _ _), tryIntoArr_ok (h2 _ _)] at hs
    have hk : SameKind (K.deriveChild k.privateKey ⟨_, h1 H k⟩) (K.deriveChild k'.privateKey ⟨_, h1 H' k'⟩) := by
      revert hs
      cases K.deriveChild k.privateKey ⟨_, h1 H k⟩ <;> cases K.deriveChild k'.privateKey ⟨_, h1 H' k'⟩ <;> intro hs <;>
        first
        | (cases hs; constructor)
        | constructor
        | cases hs
    have hv := hV.deriveChild _ _ _ _ hk
    have e1 := hV.toBytes k.privateKey k'.privateKey
    have e2 := hV.publicKey k.privateKey k'.privateKey
    have e3 := hV.pubToBytes (K.publicKey k.privateKey) (K.publicKey k'.privateKey)
    have e4 := hV.fingerprint (K.publicKey k.privateKey) (K.publicKey k'.privateKey)
    cases hh : i.isHardened <;>
    · simp only [bind, Seen.bind, Seen.emit, Seen.tryOp, Res.ofOption, tryIntoArr_ok (h1 _ _), tryIntoArr_ok (h2 _ _), pure, if_true,
        Bool.false_eq_true, if_false, hv, e1, e2, e3, e4, k.attrs.chainCode.2, k'.attrs.chainCode.2, (K.toBytes k.privateKey).2,
        (K.toBytes k'.privateKey).2, (K.pubToBytes (K.publicKey k.privateKey)).2, (K.pubToBytes (K.publicKey k'.privateKey)).2]
      revert hk
      generalize K.deriveChild k.privateKey ⟨_, h1 H k⟩ = x
      generalize K.deriveChild k'.privateKey ⟨_, h1 H' k'⟩ = y
      intro hk
      cases hk <;> rfl

theorem deriveFromPathSeen_out {K : KeyImpl} (H : Hashes) (V : KeyView K) (path : List ChildNumber) (k : GPrv K) :
    (k.deriveFromPathSeen H V path).out =
      path.foldl (fun maybeKey childNum => maybeKey >>= fun key : GPrv K => key.deriveChild H childNum) (.ok k) := by
  have herr : ∀ (e : Error) (l : List ChildNumber),
      l.foldl (fun (m : Res Error (GPrv K)) childNum => m >>= fun key => key.deriveChild H childNum) (.err e) = .err e := by
    intro e l; induction l with
    | nil => rfl
    | cons _ _ ih => exact ih
  have hpan : ∀ (l : List ChildNumber),
      l.foldl (fun (m : Res Error (GPrv K)) childNum => m >>= fun key => key.deriveChild H childNum) .panic = .panic := by
    intro l; induction l with
    | nil => rfl
    | cons _ _ ih => exact ih
  induction path generalizing k with
  | nil => rfl
  | cons i rest ih =>
    rw [GPrv.deriveFromPathSeen, List.foldl_cons, Res.ok_bind, deriveChildSeen_out]
    cases k.deriveChild H i with
    | ok c => exact ih c
    | err e => exact (herr e rest).symm
    | panic => exact (hpan rest).symm

theorem deriveFromPathSeen_view {K : KeyImpl} (H H' : Hashes) (V : KeyView K) (hV : Discreet V) (path : List ChildNumber)
    (k k' : GPrv K) (hd : k.attrs.depth = k'.attrs.depth) (c c' : GPrv K) (hc : (k.deriveFromPathSeen H V path).out = .ok c)
    (hc' : (k'.deriveFromPathSeen H' V path).out = .ok c') :
    (k.deriveFromPathSeen H V path).view = (k'.deriveFromPathSeen H' V path).view := by
  induction path generalizing k k' with
  | nil => rfl
  | cons i rest ih =>
    rw [GPrv.deriveFromPathSeen, deriveChildSeen_out] at hc hc' ⊢
    rw [GPrv.deriveFromPathSeen, deriveChildSeen_out]
    cases h : k.deriveChild H i with
    | err e => rw [h] at hc; exact nomatch hc
    | panic => rw [h] at hc; exact nomatch hc
    | ok d =>
      cases h' : k'.deriveChild H' i with
      | err e => rw [h'] at hc'; exact nomatch hc'
      | panic => rw [h'] at hc'; exact nomatch hc'
      | ok d' =>
        rw [h] at hc
        rw [h'] at hc'
        have hv := deriveChildSeen_view H H' V hV k k' i hd (by rw [h, h']; exact .ok d d')
        have hdd : ∀ (H : Hashes) (k d : GPrv K), k.deriveChild H i = .ok d → checkedSucc k.attrs.depth = some d.attrs.depth := by
          intro H k d h
          rw [GPrv.deriveChild] at h
          cases hs : checkedSucc k.attrs.depth with
          | none => rw [hs] at h; exact nomatch h
          | some x =>
            rw [hs] at h
            simp only [Res.ofOption, Res.ok_bind] at h
            revert h
            rcases tryIntoArr 32 Error.decode (((H.hmacSha512 k.attrs.chainCode.1 (k.hmacInput i)).1).take KEY_SIZE) with u | u | _
            · rcases hk : K.deriveChild k.privateKey u with v | v | _
              · rcases tryIntoArr 32 Error.decode (((H.hmacSha512 k.attrs.chainCode.1 (k.hmacInput i)).1).drop KEY_SIZE) with w | w | _
                · intro h
                  simp only [Res.ok_bind, hk, Res.ok.injEq] at h
                  rw [← h]
                · intro h; simp [hk] at h
                · intro h; simp [hk] at h
              · intro h; simp [hk] at h
              · intro h; simp [hk] at h
            · intro h; simp at h
            · intro h; simp at h
        have hdep : d.attrs.depth = d'.attrs.depth := by
          have a1 := hdd H k d h
          have a2 := hdd H' k' d' h'
          rw [hd, a2] at a1
          exact (Option.some.inj a1).symm
        have := ih d d' hdep hc hc'
        simp only [hv, this]

/-- **C117** Comparing extended private keys shows nothing of them: which branches are taken and which memory is accessed is
the same for every two pairs of keys (whose methods show nothing), in builds with and without debug assertions.  The comparison
does not panic, and its answer is that of the other theorems. -/
theorem C117_comparison_shows_nothing (K : KeyImpl) (V : KeyView K) (debug : Bool) (a b a' b' : GPrv K)
    (hV : V.toBytes a.privateKey = V.toBytes a'.privateKey) :
    (a.eqSeen debug V b).view = (a'.eqSeen debug V b').view ∧ (a.eqSeen debug V b).out = .ok (a.eq b) := by
  rw [eqSeen_eq, eqSeen_eq, hV]
  exact ⟨rfl, rfl⟩

/-- **C117** Deriving a child shows nothing of the key but its depth and the kind of outcome: two keys of the same depth, with
whatever chain codes, private keys and hash functions, look alike when the same child number succeeds, fails with the same error,
or panics for both.  Along a path the same holds for derivations that succeed. -/
theorem C117_derivation_shows_outcome (K : KeyImpl) (V : KeyView K) (hV : Discreet V) (H H' : Hashes) (k k' : GPrv K)
    (hd : k.attrs.depth = k'.attrs.depth) :
    (∀ i, (k.deriveChildSeen H V i).out = k.deriveChild H i ∧
      (SameKind (k.deriveChild H i) (k'.deriveChild H' i) → (k.deriveChildSeen H V i).view = (k'.deriveChildSeen H' V i).view)) ∧
    (∀ p : DerivationPath, (k.deriveFromPathSeen H V p.iter).out = k.deriveFromPath H p ∧
      ∀ c c', k.deriveFromPath H p = .ok c → k'.deriveFromPath H' p = .ok c' →
        (k.deriveFromPathSeen H V p.iter).view = (k'.deriveFromPathSeen H' V p.iter).view) := by
  refine ⟨fun i => ⟨deriveChildSeen_out H V k i, deriveChildSeen_view H H' V hV k k' i hd⟩,
    fun p => ⟨deriveFromPathSeen_out H V p.iter k, fun c c' hc hc' => ?_⟩⟩
  exact deriveFromPathSeen_view H H' V hV p.iter k k' hd c c' ((deriveFromPathSeen_out H V p.iter k).trans hc)
    ((deriveFromPathSeen_out H' V p.iter k').trans hc')

/-- **C117**, in contrast: the derived `==` of attributes stops at the first field that differs, and how far it went is seen. -/
theorem C117_derived_eq_shows_first_difference (a b : ExtendedKeyAttrs) :
    (a.eqSeen b).out = .ok (a.eq b) ∧
    ((a.eqSeen b).view.length = 1 ↔ a.depth ≠ b.depth) ∧
    ((a.eqSeen b).view.length = 2 ↔ a.depth = b.depth ∧ a.parentFingerprint ≠ b.parentFingerprint) ∧
    ((a.eqSeen b).view.length = 3 ↔
      a.depth = b.depth ∧ a.parentFingerprint = b.parentFingerprint ∧ a.childNumber ≠ b.childNumber) := by
  have hp : a.parentFingerprint = b.parentFingerprint ↔ a.parentFingerprint.1 = b.parentFingerprint.1 := Subtype.ext_iff
  have hc : a.childNumber.eq b.childNumber = true ↔ a.childNumber = b.childNumber := by
    rw [ChildNumber.eq, beq_iff_eq]
    exact ⟨fun h => by cases ha : a.childNumber; cases hb : b.childNumber; simp_all, fun h => by rw [h]⟩
  rw [ExtendedKeyAttrs.eqSeen, ExtendedKeyAttrs.eq]
  by_cases h1 : a.depth = b.depth
  · by_cases h2 : a.parentFingerprint.1 = b.parentFingerprint.1
    · by_cases h3 : a.childNumber = b.childNumber
      · simp [h1, hp, h2, h3, bind, Seen.bind, Seen.emit, pure, ChildNumber.eq]
      · have h3' : a.childNumber.eq b.childNumber = false := by rw [← Bool.not_eq_true, hc]; exact h3
        simp [h1, hp, h2, h3, h3', bind, Seen.bind, Seen.emit, pure]
    · simp [h1, hp, h2, bind, Seen.bind, Seen.emit, pure]
  · simp [h1, bind, Seen.bind, Seen.emit, pure]

/-- Keys of the crate, with methods that show nothing, say: every two pairs give the same view, which in a debug build has an
event for each assertion. -/
example (H : Hashes) (V : KeyView (secpImpl H)) (hV : ∀ k, V.toBytes k = []) (a b : GPrv (secpImpl H)) :
    (a.eqSeen true V b).view = eqView true ∧ (eqView true).length = 352 ∧ (eqView false).length = 274 := by
  rw [eqSeen_eq, hV]
  exact ⟨rfl, by decide +kernel, by decide +kernel⟩

/-- A view of the key type of the examples: one event for each method, two for a `derive_child` that succeeds. -/
def sumView : KeyView sumImpl where
  toBytes _ := [.inside 0]
  publicKey _ := [.inside 1]
  deriveChild k b := match sumImpl.deriveChild k b with
    | .ok _ => [.inside 2, .inside 3]
    | _ => [.inside 2]
  pubToBytes _ := [.inside 4]
  fingerprint _ := [.inside 5]

theorem sumView_discreet : Discreet sumView where
  toBytes _ _ := rfl
  publicKey _ _ := rfl
  pubToBytes _ _ := rfl
  fingerprint _ _ := rfl
  deriveChild k b k' b' h := by
    simp only [sumView]
    revert h
    generalize sumImpl.deriveChild k b = x
    generalize sumImpl.deriveChild k' b' = y
    intro h
    cases h <;> rfl

/-- Different keys and hash functions, the same view; a hardened child looks different. -/
example :
    let a : GPrv sumImpl := ⟨(1 : Nat), ⟨0, zeroArr 4, ⟨0⟩, zeroArr 32⟩⟩
    let b : GPrv sumImpl := ⟨(2 : Nat), ⟨0, zeroArr 4, ⟨7⟩, zeroArr 32⟩⟩
    (a.deriveChild (constHash 5) ⟨3⟩).isOk = true ∧ (b.deriveChild (constHash 6) ⟨3⟩).isOk = true ∧
    (a.deriveChildSeen (constHash 5) sumView ⟨3⟩).view = (b.deriveChildSeen (constHash 6) sumView ⟨3⟩).view ∧
    (a.deriveChildSeen (constHash 5) sumView ⟨3⟩).view ≠ (a.deriveChildSeen (constHash 5) sumView ⟨0x80000003⟩).view := by
  decide +kernel

end Kms.Props
