import Verif.Model.StatefulKeys
import Verif.Props.GenericKeys
/-
C110: which methods of a key implementation the library calls, with what, and what it makes of the answers.
-/
namespace Kms.Props
open Kms.Bip32 Kms.Spec Kms.Spec.Bip32

/-- The methods of the two traits. -/
inductive KeyMethod where
  | fromBytes | toBytes | deriveChild | publicKey | pubFromBytes | pubToBytes | pubDeriveChild | fingerprint
  deriving DecidableEq

/-- The method called. -/
def method {SK PK : Type} : KeyEvent SK PK → KeyMethod
  | .fromBytes .. => .fromBytes
  | .toBytes .. => .toBytes
  | .deriveChild .. => .deriveChild
  | .publicKey .. => .publicKey
  | .pubFromBytes .. => .pubFromBytes
  | .pubToBytes .. => .pubToBytes
  | .pubDeriveChild .. => .pubDeriveChild
  | .fingerprint .. => .fingerprint

/-- How the call ended: with a value, with an error or with a panic. -/
def ending {SK PK : Type} : KeyEvent SK PK → Res Error Unit
  | .fromBytes _ out => out.map fun _ => ()
  | .toBytes _ out => (out.mapErr Empty.elim).map fun _ => ()
  | .deriveChild _ _ out => out.map fun _ => ()
  | .publicKey _ out => (out.mapErr Empty.elim).map fun _ => ()
  | .pubFromBytes _ out => out.map fun _ => ()
  | .pubToBytes _ out => (out.mapErr Empty.elim).map fun _ => ()
  | .pubDeriveChild _ _ out => out.map fun _ => ()
  | .fingerprint _ out => (out.mapErr Empty.elim).map fun _ => ()

/-- The private key a method was called on. -/
def privateOf {SK PK : Type} : KeyEvent SK PK → Option SK
  | .toBytes k _ => some k
  | .deriveChild k _ _ => some k
  | .publicKey k _ => some k
  | _ => none

/-- The public key a method was called on. -/
def publicOf {SK PK : Type} : KeyEvent SK PK → Option PK
  | .pubToBytes p _ => some p
  | .pubDeriveChild p _ _ => some p
  | .fingerprint p _ => some p
  | _ => none

/-- The implementation ended the operation: the last call failed, all before it succeeded, and the operation returned the
error, or panicked, as that call did. -/
def BrokeOff {SK PK α : Type} (log : List (KeyEvent SK PK)) (r : Res Error α) : Prop :=
  ∃ before last, log = before ++ [last] ∧ (∀ e ∈ before, ending e = .ok ()) ∧ ending last ≠ .ok () ∧
    r.map (fun _ => ()) = ending last

/-- The bytes of BIP32 that are hashed for the child `i`, made of answers of the implementation. -/
def HashedBytes {SK PK : Type} (log : List (KeyEvent SK PK)) (sk : SK) (i : Nat) (data : Bytes) : Prop :=
  (2 ^ 31 ≤ i ∧ ∃ b, .toBytes sk (.ok b) ∈ log ∧ data = 0 :: b.1 ++ ser32 i) ∨
  (i < 2 ^ 31 ∧ ∃ pk b, .publicKey sk (.ok pk) ∈ log ∧ .pubToBytes pk (.ok b) ∈ log ∧ data = b.1 ++ ser32 i)

variable {σ : Type} {K : StatefulKeys σ}

theorem bindK_inv {α β : Type} {x : KeyM K α} {f : α → KeyM K β} {s s' : σ} {r : Res Error β}
    {log : List (KeyEvent K.SK K.PK)} (h : (x >>= f) s = (r, s', log)) :
    (∃ a s1 l1 l2, x s = (.ok a, s1, l1) ∧ f a s1 = (r, s', l2) ∧ log = l1 ++ l2) ∨
    (∃ e, x s = (.err e, s', log) ∧ r = .err e) ∨ (x s = (.panic, s', log) ∧ r = .panic) := by
  change KeyM.bind x f s = _ at h
  unfold KeyM.bind at h
  rcases hx : x s with ⟨o, s1, l1⟩
  rw [hx] at h
  cases o with
  | ok a =>
    left
    simp only [Prod.mk.injEq] at h
    exact ⟨a, s1, l1, (f a s1).2.2, rfl, by rw [← h.1, ← h.2.1], h.2.2.symm⟩
  | err e =>
    right; left
    simp only [Prod.mk.injEq] at h
    exact ⟨e, by rw [h.2.1, h.2.2], h.1.symm⟩
  | panic =>
    right; right
    simp only [Prod.mk.injEq] at h
    exact ⟨by rw [h.2.1, h.2.2], h.1.symm⟩

theorem bindK_ok {α β : Type} {x : KeyM K α} {f : α → KeyM K β} {s s1 : σ} {a : α}
    (h : x s = (.ok a, s1, [])) : (x >>= f) s = f a s1 := by
  change KeyM.bind x f s = _
  unfold KeyM.bind
  rw [h]
  simp

theorem bindK_err {α β : Type} {x : KeyM K α} {f : α → KeyM K β} {s s1 : σ} {e : Error}
    (h : x s = (.err e, s1, [])) : (x >>= f) s = (.err e, s1, []) := by
  change KeyM.bind x f s = _
  unfold KeyM.bind
  rw [h]

theorem call_inv {α : Type} {event : Res Error α → KeyEvent K.SK K.PK} {m : σ → Res Error α × σ} {s s' : σ}
    {r : Res Error α} {log : List (KeyEvent K.SK K.PK)} (h : KeyM.call event m s = (r, s', log)) :
    log = [event r] := by
  simp only [KeyM.call, Prod.mk.injEq] at h
  rw [← h.2.2, h.1]

theorem call'_inv {α : Type} {event : Res Empty α → KeyEvent K.SK K.PK} {m : σ → Res Empty α × σ} {s s' : σ}
    {r : Res Error α} {log : List (KeyEvent K.SK K.PK)} (h : KeyM.call' event m s = (r, s', log)) :
    (∃ a, r = .ok a ∧ log = [event (.ok a)]) ∨ (r = .panic ∧ log = [event .panic]) := by
  simp only [KeyM.call', Prod.mk.injEq] at h
  cases hm : (m s).1 with
  | ok a => left; rw [hm] at h; exact ⟨a, h.1.symm, h.2.2.symm⟩
  | err e => exact e.elim
  | panic => right; rw [hm] at h; exact ⟨h.1.symm, h.2.2.symm⟩

theorem lift_inv {α : Type} {x r : Res Error α} {s s' : σ} {log : List (KeyEvent K.SK K.PK)}
    (h : (KeyM.lift x : KeyM K α) s = (r, s', log)) : r = x ∧ log = [] := by
  simp only [KeyM.lift, Prod.mk.injEq] at h
  exact ⟨h.1.symm, h.2.2.symm⟩

/-- The end of `derive_child`, after the HMAC. -/
def finish (k : SPrv K) (d : UInt8) (i : ChildNumber) (I : ByteArr 64) : KeyM K (SPrv K) := do
  let privateKey ← KeyM.deriveChild k.privateKey (left I)
  let publicKey ← KeyM.publicKey k.privateKey
  let parentFingerprint ← KeyM.fingerprint publicKey
  pure ⟨privateKey, ⟨d, parentFingerprint, i, right I⟩⟩

theorem finish_inv {k : SPrv K} {d : UInt8} {i : ChildNumber} {I : ByteArr 64} {s s' : σ} {r : Res Error (SPrv K)}
    {log : List (KeyEvent K.SK K.PK)} (h : finish k d i I s = (r, s', log)) :
    (∃ out, log = [.deriveChild k.privateKey (left I) out] ∧ (∀ x, out ≠ .ok x) ∧
      r.map (fun _ => ()) = out.map (fun _ => ())) ∨
    (∃ sk, log = [.deriveChild k.privateKey (left I) (.ok sk), .publicKey k.privateKey .panic] ∧ r = .panic) ∨
    (∃ sk pk, log = [.deriveChild k.privateKey (left I) (.ok sk), .publicKey k.privateKey (.ok pk), .fingerprint pk .panic] ∧
      r = .panic) ∨
    (∃ sk pk f, log = [.deriveChild k.privateKey (left I) (.ok sk), .publicKey k.privateKey (.ok pk),
        .fingerprint pk (.ok f)] ∧ r = .ok ⟨sk, ⟨d, f, i, right I⟩⟩) := by
  unfold finish at h
  rcases bindK_inv h with ⟨sk, s1, l1, l2, h1, h2, rfl⟩ | ⟨e, h1, rfl⟩ | ⟨h1, rfl⟩
  · right
    have := call_inv h1
    subst this
    rcases bindK_inv h2 with ⟨pk, s2, l3, l4, h3, h4, rfl⟩ | ⟨e, h3, rfl⟩ | ⟨h3, rfl⟩
    · rcases call'_inv h3 with ⟨a, ha, rfl⟩ | ⟨ha, _⟩
      · cases ha
        right
        rcases bindK_inv h4 with ⟨f, s3, l5, l6, h5, h6, rfl⟩ | ⟨e, h5, rfl⟩ | ⟨h5, rfl⟩
        · rcases call'_inv h5 with ⟨a, ha, rfl⟩ | ⟨ha, _⟩
          · cases ha
            right
            cases h6
            exact ⟨sk, pk, f, rfl, rfl⟩
          · cases ha
        · rcases call'_inv h5 with ⟨a, ha, _⟩ | ⟨ha, _⟩ <;> cases ha
        · rcases call'_inv h5 with ⟨a, ha, _⟩ | ⟨_, rfl⟩
          · cases ha
          · exact Or.inl ⟨sk, pk, rfl, rfl⟩
      · cases ha
    · rcases call'_inv h3 with ⟨a, ha, _⟩ | ⟨ha, _⟩ <;> cases ha
    · rcases call'_inv h3 with ⟨a, ha, _⟩ | ⟨_, rfl⟩
      · cases ha
      · exact Or.inl ⟨sk, rfl, rfl⟩
  · exact Or.inl ⟨.err e, call_inv h1, by simp, rfl⟩
  · exact Or.inl ⟨.panic, call_inv h1, by simp, rfl⟩

theorem lift_ok_bind {α β : Type} (a : α) (f : α → KeyM K β) : ((KeyM.lift (.ok a) : KeyM K α) >>= f) = f a := by
  funext s
  exact bindK_ok rfl

theorem lift_err_bind {α β : Type} (e : Error) (f : α → KeyM K β) :
    ((KeyM.lift (.err e) : KeyM K α) >>= f) = KeyM.lift (.err e) := rfl

theorem lift_panic_bind {α β : Type} (f : α → KeyM K β) :
    ((KeyM.lift .panic : KeyM K α) >>= f) = KeyM.lift .panic := rfl

theorem pure_bindK {α β : Type} (a : α) (f : α → KeyM K β) : ((pure a : KeyM K α) >>= f) = f a := lift_ok_bind a f

theorem assocK {α β γ : Type} (x : KeyM K α) (f : α → KeyM K β) (g : β → KeyM K γ) :
    (x >>= f >>= g) = (x >>= fun a => f a >>= g) := by
  funext s
  change KeyM.bind (KeyM.bind x f) g s = KeyM.bind x (fun a => KeyM.bind (f a) g) s
  unfold KeyM.bind
  rcases x s with ⟨o, s1, l1⟩
  cases o with
  | ok a =>
    simp only
    rcases f a s1 with ⟨o2, s2, l2⟩
    cases o2 <;> simp
  | err e => rfl
  | panic => rfl

theorem deriveChild_hardened {k : SPrv K} {i : ChildNumber} {H : Hashes} {d : UInt8} (hd : checkedSucc k.attrs.depth = some d)
    (hh : i.isHardened = true) : k.deriveChild H i = (KeyM.toBytes k.privateKey >>= fun b =>
      finish k d i (H.hmacSha512 k.attrs.chainCode.1 ([0] ++ b.1 ++ i.toBytes.1))) := by
  unfold SPrv.deriveChild SPrv.hmacInput finish
  simp only [hd, hh, Res.ofOption_some, lift_ok_bind, tryInto_left, tryInto_right, if_true, assocK, pure_bindK]

theorem deriveChild_normal {k : SPrv K} {i : ChildNumber} {H : Hashes} {d : UInt8} (hd : checkedSucc k.attrs.depth = some d)
    (hh : i.isHardened = false) : k.deriveChild H i = (KeyM.publicKey k.privateKey >>= fun pk => KeyM.pubToBytes pk >>= fun b =>
      finish k d i (H.hmacSha512 k.attrs.chainCode.1 (b.1 ++ i.toBytes.1))) := by
  unfold SPrv.deriveChild SPrv.hmacInput finish
  simp only [hd, hh, Res.ofOption_some, lift_ok_bind, tryInto_left, tryInto_right, Bool.false_eq_true, if_false, assocK,
    pure_bindK]

/-- What holds of the calls made by `derive_child` of a private key that is not at the last level. -/
def PrivateChild (H : Hashes) (k : SPrv K) (i : ChildNumber) (r : Res Error (SPrv K)) (log : List (KeyEvent K.SK K.PK)) :
    Prop :=
  log.map method <+: (if 2 ^ 31 ≤ i.n.toNat then [.toBytes, .deriveChild, .publicKey, .fingerprint]
    else [.publicKey, .pubToBytes, .deriveChild, .publicKey, .fingerprint]) ∧
  (∀ e ∈ log, ∀ x, privateOf e = some x → x = k.privateKey) ∧
  (∀ x t out, .deriveChild x t out ∈ log → ∃ data, HashedBytes log k.privateKey i.n.toNat data ∧
    t.1 = (hmac (specHash H).sha512 k.attrs.chainCode.1 data).take 32) ∧
  (BrokeOff log r ∨ ∃ c pk t data, r = .ok c ∧ (∀ e ∈ log, ending e = .ok ()) ∧
    HashedBytes log k.privateKey i.n.toNat data ∧
    .deriveChild k.privateKey t (.ok c.privateKey) ∈ log ∧ .publicKey k.privateKey (.ok pk) ∈ log ∧
    .fingerprint pk (.ok c.attrs.parentFingerprint) ∈ log ∧
    c.attrs.depth.toNat = k.attrs.depth.toNat + 1 ∧ c.attrs.childNumber = i ∧
    c.attrs.chainCode.1 = (hmac (specHash H).sha512 k.attrs.chainCode.1 data).drop 32)

theorem not_ok_ending {α : Type} {out : Res Error α} (h : ∀ x, out ≠ .ok x) : out.map (fun _ => ()) ≠ .ok () := by
  cases out with
  | ok a => exact absurd rfl (h a)
  | err e => simp
  | panic => simp

/-- From the calls before the HMAC and those after it to `PrivateChild`. -/
theorem privateChild_of_finish {H : Hashes} {k : SPrv K} {i : ChildNumber} {d : UInt8} {s s' : σ} {r : Res Error (SPrv K)}
    {l1 l2 : List (KeyEvent K.SK K.PK)} {data : Bytes} (hd : d.toNat = k.attrs.depth.toNat + 1)
    (hrun : finish k d i (H.hmacSha512 k.attrs.chainCode.1 data) s = (r, s', l2))
    (hdata : HashedBytes l1 k.privateKey i.n.toNat data)
    (h1 : l1.map method ++ [.deriveChild, .publicKey, .fingerprint] =
      (if 2 ^ 31 ≤ i.n.toNat then [.toBytes, .deriveChild, .publicKey, .fingerprint]
        else [.publicKey, .pubToBytes, .deriveChild, .publicKey, .fingerprint]))
    (hok : ∀ e ∈ l1, ending e = .ok ()) (hp : ∀ e ∈ l1, ∀ x, privateOf e = some x → x = k.privateKey)
    (hnd : ∀ x t out, .deriveChild x t out ∉ l1) :
    PrivateChild H k i r (l1 ++ l2) := by
  have hdata' : HashedBytes (l1 ++ l2) k.privateKey i.n.toNat data := by
    rcases hdata with ⟨hi, b, hb, e⟩ | ⟨hi, pk, b, hpk, hb, e⟩
    · exact Or.inl ⟨hi, b, List.mem_append_left _ hb, e⟩
    · exact Or.inr ⟨hi, pk, b, List.mem_append_left _ hpk, List.mem_append_left _ hb, e⟩
  have hI := hmacSha512_spec H k.attrs.chainCode.1 data
  have hL : (left (H.hmacSha512 k.attrs.chainCode.1 data)).1 = (hmac (specHash H).sha512 k.attrs.chainCode.1 data).take 32 := by
    show (H.hmacSha512 k.attrs.chainCode.1 data).1.take 32 = _
    rw [hI]; rfl
  have hR : (right (H.hmacSha512 k.attrs.chainCode.1 data)).1 = (hmac (specHash H).sha512 k.attrs.chainCode.1 data).drop 32 := by
    show (H.hmacSha512 k.attrs.chainCode.1 data).1.drop 32 = _
    rw [hI]; rfl
  unfold PrivateChild
  rw [← h1]
  rcases finish_inv hrun with ⟨out, rfl, hout, hr⟩ | ⟨sk, rfl, rfl⟩ | ⟨sk, pk, rfl, rfl⟩ | ⟨sk, pk, f, rfl, rfl⟩
  · refine ⟨?_, ?_, ?_, Or.inl ⟨l1, _, rfl, hok, not_ok_ending hout, hr⟩⟩
    · simp [method, List.prefix_append_right_inj]
    · intro e he x hx
      rcases List.mem_append.1 he with he | he
      · exact hp e he x hx
      · simp only [List.mem_singleton] at he
        subst he
        simpa [privateOf] using hx.symm
    · intro x t out' hm
      rcases List.mem_append.1 hm with hm | hm
      · exact absurd hm (hnd _ _ _)
      · simp only [List.mem_singleton, KeyEvent.deriveChild.injEq] at hm
        exact ⟨data, hdata', by rw [hm.2.1, hL]⟩
  · refine ⟨?_, ?_, ?_, Or.inl ⟨l1 ++ [.deriveChild k.privateKey (left (H.hmacSha512 k.attrs.chainCode.1 data)) (.ok sk)],
      .publicKey k.privateKey .panic, by simp, ?_, ?_, ?_⟩⟩
    · simp [method, List.prefix_append_right_inj]
    · intro e he x hx
      rcases List.mem_append.1 he with he | he
      · exact hp e he x hx
      · simp only [List.mem_cons, List.not_mem_nil, or_false] at he
        rcases he with rfl | rfl <;> simpa [privateOf] using hx.symm
    · intro x t out' hm
      rcases List.mem_append.1 hm with hm | hm
      · exact absurd hm (hnd _ _ _)
      · simp only [List.mem_cons, List.not_mem_nil, or_false, KeyEvent.deriveChild.injEq, reduceCtorEq] at hm
        exact ⟨data, hdata', by rw [hm.2.1, hL]⟩
    · intro e he
      rcases List.mem_append.1 he with he | he
      · exact hok e he
      · simp only [List.mem_singleton] at he
        subst he
        rfl
    · simp [ending]
    · simp [ending]
  · refine ⟨?_, ?_, ?_, Or.inl ⟨l1 ++ [.deriveChild k.privateKey (left (H.hmacSha512 k.attrs.chainCode.1 data)) (.ok sk),
      .publicKey k.privateKey (.ok pk)], .fingerprint pk .panic, by simp, ?_, ?_, ?_⟩⟩
    · simp [method]
    · intro e he x hx
      rcases List.mem_append.1 he with he | he
      · exact hp e he x hx
      · simp only [List.mem_cons, List.not_mem_nil, or_false] at he
        rcases he with rfl | rfl | rfl
        · simpa [privateOf] using hx.symm
        · simpa [privateOf] using hx.symm
        · simp [privateOf] at hx
    · intro x t out' hm
      rcases List.mem_append.1 hm with hm | hm
      · exact absurd hm (hnd _ _ _)
      · simp only [List.mem_cons, List.not_mem_nil, or_false, KeyEvent.deriveChild.injEq, reduceCtorEq] at hm
        exact ⟨data, hdata', by rw [hm.2.1, hL]⟩
    · intro e he
      rcases List.mem_append.1 he with he | he
      · exact hok e he
      · simp only [List.mem_cons, List.not_mem_nil, or_false] at he
        rcases he with rfl | rfl <;> rfl
    · simp [ending]
    · simp [ending]
  · refine ⟨?_, ?_, ?_, Or.inr ⟨_, pk, left (H.hmacSha512 k.attrs.chainCode.1 data), data, rfl, ?_,
      hdata', ?_, ?_, ?_, hd, rfl, hR⟩⟩
    · simp [method]
    · intro e he x hx
      rcases List.mem_append.1 he with he | he
      · exact hp e he x hx
      · simp only [List.mem_cons, List.not_mem_nil, or_false] at he
        rcases he with rfl | rfl | rfl
        · simpa [privateOf] using hx.symm
        · simpa [privateOf] using hx.symm
        · simp [privateOf] at hx
    · intro x t out' hm
      rcases List.mem_append.1 hm with hm | hm
      · exact absurd hm (hnd _ _ _)
      · simp only [List.mem_cons, List.not_mem_nil, or_false, KeyEvent.deriveChild.injEq, reduceCtorEq] at hm
        exact ⟨data, hdata', by rw [hm.2.1, hL]⟩
    · intro e he
      rcases List.mem_append.1 he with he | he
      · exact hok e he
      · simp only [List.mem_cons, List.not_mem_nil, or_false] at he
        rcases he with rfl | rfl | rfl <;> rfl
    · exact List.mem_append_right _ (by simp)
    · exact List.mem_append_right _ (by simp)
    · exact List.mem_append_right _ (by simp)

/-- C110. `derive_child` of a private key.  At the last level it returns an error without calling the implementation.
Otherwise it calls the methods in the order shown, on that key, each once (`public_key` twice for a child that is not
hardened); `to_bytes`, the only method that hands out the private key, only for a hardened child.  The tweak is the left half of
the HMAC over the bytes the implementation answered.  The first call that fails ends it, and its error or panic is the result;
if none fails, the child has the key that `derive_child` answered, the fingerprint that `fingerprint` answered, and BIP32's
depth, child number and chain code. -/
theorem C110_private_child (H : Hashes) (k : SPrv K) (i : ChildNumber) (s : σ) :
    (k.attrs.depth.toNat = 255 → k.deriveChild H i s = (.err .depth, s, [])) ∧
    (k.attrs.depth.toNat < 255 → ∀ r s' log, k.deriveChild H i s = (r, s', log) → PrivateChild H k i r log) := by
  rcases checkedSucc_cases k.attrs.depth with ⟨h, hd, hd'⟩ | ⟨h, hd⟩
  · refine ⟨fun h' => by omega, fun _ r s' log hrun => ?_⟩
    by_cases hh : i.isHardened = true
    · have hi := (ChildNumber.isHardened_iff i).1 hh
      rw [deriveChild_hardened hd hh] at hrun
      rcases bindK_inv hrun with ⟨b, s1, l1, l2, h1, h2, rfl⟩ | ⟨e, h1, rfl⟩ | ⟨h1, rfl⟩
      · rcases call'_inv h1 with ⟨a, ha, rfl⟩ | ⟨ha, _⟩
        · cases ha
          refine privateChild_of_finish hd' h2 (Or.inl ⟨hi, b, by simp, ?_⟩) ?_ ?_ ?_ ?_
          · rw [ser32_eq]; rfl
          · rw [if_pos hi]; rfl
          · simp [ending]
          · simp [privateOf]
          · simp
        · cases ha
      · rcases call'_inv h1 with ⟨a, ha, _⟩ | ⟨ha, _⟩ <;> cases ha
      · rcases call'_inv h1 with ⟨a, ha, _⟩ | ⟨_, rfl⟩
        · cases ha
        · refine ⟨?_, by simp [privateOf], by simp, Or.inl ⟨[], _, rfl, by simp, by simp [ending], by simp [ending]⟩⟩
          rw [if_pos hi]
          simp [method]
    · have hh' : i.isHardened = false := by simpa using hh
      have hi : ¬ 2 ^ 31 ≤ i.n.toNat := fun h' => hh ((ChildNumber.isHardened_iff i).2 h')
      rw [deriveChild_normal hd hh'] at hrun
      rcases bindK_inv hrun with ⟨pk, s1, l1, l2, h1, h2, rfl⟩ | ⟨e, h1, rfl⟩ | ⟨h1, rfl⟩
      · rcases call'_inv h1 with ⟨a, ha, rfl⟩ | ⟨ha, _⟩
        · cases ha
          rcases bindK_inv h2 with ⟨b, s2, l3, l4, h3, h4, rfl⟩ | ⟨e, h3, rfl⟩ | ⟨h3, rfl⟩
          · rcases call'_inv h3 with ⟨a, ha, rfl⟩ | ⟨ha, _⟩
            · cases ha
              rw [← List.append_assoc]
              refine privateChild_of_finish hd' h4 (Or.inr ⟨by omega, pk, b, by simp, by simp, ?_⟩) ?_ ?_ ?_ ?_
              · rw [ser32_eq]
              · rw [if_neg hi]; rfl
              · simp [ending]
              · simp [privateOf]
              · simp
            · cases ha
          · rcases call'_inv h3 with ⟨a, ha, _⟩ | ⟨ha, _⟩ <;> cases ha
          · rcases call'_inv h3 with ⟨a, ha, _⟩ | ⟨_, rfl⟩
            · cases ha
            · refine ⟨?_, by simp [privateOf], by simp,
                Or.inl ⟨[_], _, rfl, by simp [ending], by simp [ending], by simp [ending]⟩⟩
              rw [if_neg hi]
              simp [method]
        · cases ha
      · rcases call'_inv h1 with ⟨a, ha, _⟩ | ⟨ha, _⟩ <;> cases ha
      · rcases call'_inv h1 with ⟨a, ha, _⟩ | ⟨_, rfl⟩
        · cases ha
        · refine ⟨?_, by simp [privateOf], by simp, Or.inl ⟨[], _, rfl, by simp, by simp [ending], by simp [ending]⟩⟩
          rw [if_neg hi]
          simp [method]
  · refine ⟨fun _ => ?_, fun h' => by omega⟩
    unfold SPrv.deriveChild
    rw [hd]
    rfl

/-- What holds of the calls made by `derive_child` of a public key that is not at the last level. -/
def PublicChild (H : Hashes) (k : SPub K) (i : ChildNumber) (r : Res Error (SPub K)) (log : List (KeyEvent K.SK K.PK)) :
    Prop :=
  log.map method <+: [.pubToBytes, .pubDeriveChild, .fingerprint] ∧
  (∀ e ∈ log, publicOf e = some k.publicKey) ∧
  (∀ x t out, .pubDeriveChild x t out ∈ log → ∃ b, .pubToBytes k.publicKey (.ok b) ∈ log ∧
    t.1 = (hmac (specHash H).sha512 k.attrs.chainCode.1 (b.1 ++ ser32 i.n.toNat)).take 32) ∧
  (BrokeOff log r ∨ ∃ c t b, r = .ok c ∧ (∀ e ∈ log, ending e = .ok ()) ∧
    .pubToBytes k.publicKey (.ok b) ∈ log ∧ .pubDeriveChild k.publicKey t (.ok c.publicKey) ∈ log ∧
    .fingerprint k.publicKey (.ok c.attrs.parentFingerprint) ∈ log ∧
    c.attrs.depth.toNat = k.attrs.depth.toNat + 1 ∧ c.attrs.childNumber = i ∧
    c.attrs.chainCode.1 = (hmac (specHash H).sha512 k.attrs.chainCode.1 (b.1 ++ ser32 i.n.toNat)).drop 32)

/-- C110. `derive_child` of a public key: a hardened child and the last level are refused without calling the
implementation; otherwise as for a private key. -/
theorem C110_public_child (H : Hashes) (k : SPub K) (i : ChildNumber) (s : σ) :
    (2 ^ 31 ≤ i.n.toNat → k.deriveChild H i s = (.err .childNumber, s, [])) ∧
    (i.n.toNat < 2 ^ 31 → k.attrs.depth.toNat = 255 → k.deriveChild H i s = (.err .depth, s, [])) ∧
    (i.n.toNat < 2 ^ 31 → k.attrs.depth.toNat < 255 → ∀ r s' log, k.deriveChild H i s = (r, s', log) →
      PublicChild H k i r log) := by
  by_cases hh : i.isHardened = true
  · have hi := (ChildNumber.isHardened_iff i).1 hh
    refine ⟨fun _ => ?_, fun h => by omega, fun h => by omega⟩
    unfold SPub.deriveChild
    rw [if_pos hh]
    rfl
  · have hi : ¬ 2 ^ 31 ≤ i.n.toNat := fun h' => hh ((ChildNumber.isHardened_iff i).2 h')
    refine ⟨fun h => absurd h hi, ?_⟩
    rcases checkedSucc_cases k.attrs.depth with ⟨h, hd, hd'⟩ | ⟨h, hd⟩
    · refine ⟨fun _ h' => by omega, fun _ _ r s' log hrun => ?_⟩
      unfold SPub.deriveChild at hrun
      rw [if_neg hh] at hrun
      simp only [hd, Res.ofOption_some, lift_ok_bind, tryInto_left, tryInto_right] at hrun
      rcases bindK_inv hrun with ⟨b, s1, l1, l2, h1, h2, rfl⟩ | ⟨e, h1, rfl⟩ | ⟨h1, rfl⟩
      · rcases call'_inv h1 with ⟨a, ha, rfl⟩ | ⟨ha, _⟩
        · cases ha
          rw [← ser32_eq] at h2
          have hI := hmacSha512_spec H k.attrs.chainCode.1 (b.1 ++ ser32 i.n.toNat)
          have hL : (left (H.hmacSha512 k.attrs.chainCode.1 (b.1 ++ ser32 i.n.toNat))).1 =
              (hmac (specHash H).sha512 k.attrs.chainCode.1 (b.1 ++ ser32 i.n.toNat)).take 32 := by
            show (H.hmacSha512 k.attrs.chainCode.1 _).1.take 32 = _
            rw [hI]; rfl
          have hR : (right (H.hmacSha512 k.attrs.chainCode.1 (b.1 ++ ser32 i.n.toNat))).1 =
              (hmac (specHash H).sha512 k.attrs.chainCode.1 (b.1 ++ ser32 i.n.toNat)).drop 32 := by
            show (H.hmacSha512 k.attrs.chainCode.1 _).1.drop 32 = _
            rw [hI]; rfl
          generalize H.hmacSha512 k.attrs.chainCode.1 (b.1 ++ ser32 i.n.toNat) = I at *
          rcases bindK_inv h2 with ⟨pk, s2, l3, l4, h3, h4, rfl⟩ | ⟨e, h3, rfl⟩ | ⟨h3, rfl⟩
          · have := call_inv h3
            subst this
            rcases bindK_inv h4 with ⟨f, s3, l5, l6, h5, h6, rfl⟩ | ⟨e, h5, rfl⟩ | ⟨h5, rfl⟩
            · rcases call'_inv h5 with ⟨a, ha, rfl⟩ | ⟨ha, _⟩
              · cases ha
                cases h6
                refine ⟨by simp [method], by simp [publicOf], ?_, Or.inr ⟨_, left I, b, rfl, by simp [ending], by simp,
                  by simp, by simp, hd', rfl, hR⟩⟩
                intro x t out hm
                simp at hm
                exact ⟨b, by simp, by rw [hm.2.1, hL]⟩
              · cases ha
            · rcases call'_inv h5 with ⟨a, ha, _⟩ | ⟨ha, _⟩ <;> cases ha
            · rcases call'_inv h5 with ⟨a, ha, _⟩ | ⟨_, rfl⟩
              · cases ha
              · refine ⟨by simp [method], by simp [publicOf], ?_, Or.inl ⟨[_, _], _, rfl, by simp [ending],
                  by simp [ending], by simp [ending]⟩⟩
                intro x t out hm
                simp at hm
                exact ⟨b, by simp, by rw [hm.2.1, hL]⟩
          · have := call_inv h3
            subst this
            refine ⟨by simp [method], by simp [publicOf], ?_, Or.inl ⟨[_], _, rfl, by simp [ending],
              by simp [ending], by simp [ending]⟩⟩
            intro x t out hm
            simp at hm
            exact ⟨b, by simp, by rw [hm.2.1, hL]⟩
          · have := call_inv h3
            subst this
            refine ⟨by simp [method], by simp [publicOf], ?_, Or.inl ⟨[_], _, rfl, by simp [ending],
              by simp [ending], by simp [ending]⟩⟩
            intro x t out hm
            simp at hm
            exact ⟨b, by simp, by rw [hm.2.1, hL]⟩
        · cases ha
      · rcases call'_inv h1 with ⟨a, ha, _⟩ | ⟨ha, _⟩ <;> cases ha
      · rcases call'_inv h1 with ⟨a, ha, _⟩ | ⟨_, rfl⟩
        · cases ha
        · exact ⟨by simp [method], by simp [publicOf], by simp,
            Or.inl ⟨[], _, rfl, by simp, by simp [ending], by simp [ending]⟩⟩
    · refine ⟨fun _ _ => ?_, fun _ h' => by omega⟩
      unfold SPub.deriveChild
      rw [if_neg hh, hd]
      rfl

/-- How often a method was called. -/
def calls {SK PK : Type} (m : KeyMethod) (log : List (KeyEvent SK PK)) : Nat := (log.map method).count m

/-- Number of hardened steps of a path. -/
def hardenedSteps (p : DerivationPath) : Nat := p.iter.countP fun i => decide (2 ^ 31 ≤ i.n.toNat)

theorem calls_append {SK PK : Type} (m : KeyMethod) (a b : List (KeyEvent SK PK)) : calls m (a ++ b) = calls m a + calls m b := by
  simp [calls]

theorem child_calls {H : Hashes} {k : SPrv K} {i : ChildNumber} {s s' : σ} {r : Res Error (SPrv K)}
    {log : List (KeyEvent K.SK K.PK)} (h : k.deriveChild H i s = (r, s', log)) :
    calls .toBytes log ≤ (if 2 ^ 31 ≤ i.n.toNat then 1 else 0) ∧ calls .deriveChild log ≤ 1 ∧ calls .fromBytes log = 0 ∧
    ((∃ c, r = .ok c) → calls .toBytes log = (if 2 ^ 31 ≤ i.n.toNat then 1 else 0) ∧ calls .deriveChild log = 1) := by
  obtain ⟨h1, h2⟩ := C110_private_child H k i s
  have hb := k.attrs.depth.toNat_lt
  by_cases hd : k.attrs.depth.toNat = 255
  · rw [h1 hd] at h
    cases h
    simp [calls]
  · obtain ⟨hp, _, _, hr⟩ := h2 (by omega) r s' log h
    have hle := hp.sublist
    have hc : ∀ m, calls m log ≤ List.count m (if 2 ^ 31 ≤ i.n.toNat then
        [KeyMethod.toBytes, .deriveChild, .publicKey, .fingerprint]
        else [.publicKey, .pubToBytes, .deriveChild, .publicKey, .fingerprint]) := fun m => hle.count_le m
    have c1 := hc .toBytes
    have c2 := hc .deriveChild
    have c3 := hc .fromBytes
    refine ⟨?_, ?_, ?_, ?_⟩
    · split at c1 <;> simp_all
    · split at c2 <;> simpa using c2
    · split at c3 <;> simpa using c3
    · rintro ⟨c, rfl⟩
      rcases hr with ⟨before, last, _, _, hne, hl⟩ | ⟨c', pk, t, data, _, _, hdata, hm, _, _⟩
      · rw [← hl] at hne
        simp at hne
      · have hpos : ∀ (m : KeyMethod) e, e ∈ log → method e = m → 1 ≤ calls m log := by
          intro m e he hm
          have : m ∈ log.map method := List.mem_map.2 ⟨e, he, hm⟩
          exact List.count_pos_iff.2 this
        have p2 := hpos .deriveChild _ hm rfl
        rcases hdata with ⟨hi, b, hb, _⟩ | ⟨hi, _⟩
        · have p1 := hpos .toBytes _ hb rfl
          rw [if_pos hi] at c1 c2 ⊢
          simp at c1 c2
          omega
        · have hi' : ¬ 2 ^ 31 ≤ i.n.toNat := by omega
          rw [if_neg hi'] at c1 c2 ⊢
          simp at c1 c2
          omega

/-- The calls of a walk along a path that has begun with the code `x`. -/
theorem walk_calls {H : Hashes} (p : List ChildNumber) {x : KeyM K (SPrv K)} {s s' : σ} {r : Res Error (SPrv K)}
    {log : List (KeyEvent K.SK K.PK)} (h : p.foldl (fun m i => m >>= fun key => key.deriveChild H i) x s = (r, s', log)) :
    ∃ r0 s0 l0 l1, x s = (r0, s0, l0) ∧ log = l0 ++ l1 ∧
      calls .toBytes l1 ≤ p.countP (fun i => decide (2 ^ 31 ≤ i.n.toNat)) ∧ calls .deriveChild l1 ≤ p.length ∧
      calls .fromBytes l1 = 0 ∧ ((∃ c, r = .ok c) → (∃ c, r0 = .ok c) ∧
        calls .toBytes l1 = p.countP (fun i => decide (2 ^ 31 ≤ i.n.toNat)) ∧ calls .deriveChild l1 = p.length) := by
  induction p using List.reverseRecOn generalizing r s' log with
  | nil =>
    exact ⟨r, s', log, [], h, by simp, by simp [calls], by simp [calls], by simp [calls], fun hr => ⟨hr, by simp [calls]⟩⟩
  | append_singleton p i ih =>
    rw [List.foldl_append, List.foldl_cons, List.foldl_nil] at h
    rw [List.countP_append, List.length_append]
    have e1 : List.countP (fun i : ChildNumber => decide (2 ^ 31 ≤ i.n.toNat)) [i] = if 2 ^ 31 ≤ i.n.toNat then 1 else 0 := by
      simp [List.countP_cons]
    rw [e1]
    simp only [List.length_cons, List.length_nil]
    rcases bindK_inv h with ⟨c, s1, l1, l2, h1, h2, rfl⟩ | ⟨e, h1, rfl⟩ | ⟨h1, rfl⟩
    · obtain ⟨r0, s0, l0, l3, hx, rfl, a1, a2, a3, a4⟩ := ih h1
      obtain ⟨b1, b2, b3, b4⟩ := child_calls h2
      refine ⟨r0, s0, l0, l3 ++ l2, hx, by simp, ?_, ?_, ?_, ?_⟩
      · rw [calls_append]; omega
      · rw [calls_append]; omega
      · rw [calls_append]; omega
      · intro hr
        obtain ⟨d1, d2, d3⟩ := a4 ⟨c, rfl⟩
        obtain ⟨d4, d5⟩ := b4 hr
        rw [calls_append, calls_append]
        exact ⟨d1, by omega, by omega⟩
    · obtain ⟨r0, s0, l0, l3, hx, rfl, a1, a2, a3, _⟩ := ih h1
      exact ⟨r0, s0, l0, l3, hx, rfl, by omega, by omega, a3, by simp⟩
    · obtain ⟨r0, s0, l0, l3, hx, rfl, a1, a2, a3, _⟩ := ih h1
      exact ⟨r0, s0, l0, l3, hx, rfl, by omega, by omega, a3, by simp⟩

theorem new_inv {H : Hashes} {seed : Bytes} {s s' : σ} {r : Res Error (SPrv K)} {log : List (KeyEvent K.SK K.PK)}
    (h : SPrv.new K H seed s = (r, s', log)) :
    (seed.length ∉ [16, 32, 64, 128] → r = .err .seedLength ∧ s' = s ∧ log = []) ∧
    (seed.length ∈ [16, 32, 64, 128] → ∃ b out, log = [.fromBytes b out] ∧ b.1 = (master (specHash H) seed).take 32 ∧
      r.map SPrv.privateKey = out ∧ ∀ k, r = .ok k → k.attrs.depth = 0 ∧ k.attrs.parentFingerprint.1 = [0, 0, 0, 0] ∧
        k.attrs.childNumber.n = 0 ∧ k.attrs.chainCode.1 = (master (specHash H) seed).drop 32) := by
  unfold SPrv.new at h
  by_cases hc : seed.length ∈ [16, 32, 64, 128]
  · refine ⟨fun h' => absurd hc h', fun _ => ?_⟩
    have hc' : ([16, 32, 64, 128] : List Nat).contains seed.length = true := by simpa using hc
    rw [if_neg (by rw [hc']; decide)] at h
    simp only [lift_ok_bind, tryInto_left, tryInto_right] at h
    have hI : (H.hmacSha512 BIP39_DOMAIN_SEPARATOR seed).1 = master (specHash H) seed := by
      rw [hmacSha512_spec]; rfl
    have hL : (left (H.hmacSha512 BIP39_DOMAIN_SEPARATOR seed)).1 = (master (specHash H) seed).take 32 := by rw [← hI]; rfl
    have hR : (right (H.hmacSha512 BIP39_DOMAIN_SEPARATOR seed)).1 = (master (specHash H) seed).drop 32 := by rw [← hI]; rfl
    rcases bindK_inv h with ⟨sk, s1, l1, l2, h1, h2, rfl⟩ | ⟨e, h1, rfl⟩ | ⟨h1, rfl⟩
    · cases h2
      rw [call_inv h1]
      refine ⟨_, .ok sk, rfl, hL, rfl, ?_⟩
      intro k hk
      cases hk
      exact ⟨rfl, rfl, rfl, hR⟩
    · rw [call_inv h1]
      exact ⟨_, .err e, rfl, hL, rfl, by simp⟩
    · rw [call_inv h1]
      exact ⟨_, .panic, rfl, hL, rfl, by simp⟩
  · refine ⟨fun _ => ?_, fun h' => absurd h' hc⟩
    have hc' : ([16, 32, 64, 128] : List Nat).contains seed.length = false := by simpa using hc
    rw [if_pos (by rw [hc']; decide)] at h
    cases h
    exact ⟨rfl, rfl, rfl⟩

/-- C110. Along a path the private key is asked for at most once for each hardened step, and not at all along a path without
hardened steps; `from_bytes` is called at most once, for the master key.  A walk that succeeds made exactly one call of
`derive_child` for each step and of `to_bytes` for each hardened step. -/
theorem C110_paths (H : Hashes) (p : DerivationPath) (s s' : σ) (r : Res Error (SPrv K)) (log : List (KeyEvent K.SK K.PK)) :
    (∀ k : SPrv K, k.deriveFromPath H p s = (r, s', log) →
      calls .toBytes log ≤ hardenedSteps p ∧ calls .deriveChild log ≤ p.len ∧ calls .fromBytes log = 0 ∧
      ((∃ c, r = .ok c) → calls .toBytes log = hardenedSteps p ∧ calls .deriveChild log = p.len)) ∧
    (∀ seed, SPrv.newFromPath K H seed p s = (r, s', log) →
      calls .toBytes log ≤ hardenedSteps p ∧ calls .deriveChild log ≤ p.len ∧ calls .fromBytes log ≤ 1 ∧
      ((∃ c, r = .ok c) → calls .toBytes log = hardenedSteps p ∧ calls .deriveChild log = p.len ∧
        calls .fromBytes log = 1)) ∧
    ((∀ i ∈ p.iter, i.n.toNat < 2 ^ 31) → hardenedSteps p = 0) := by
  refine ⟨fun k h => ?_, fun seed h => ?_, fun h => ?_⟩
  · obtain ⟨r0, s0, l0, l1, hx, rfl, a1, a2, a3, a4⟩ := walk_calls p.iter h
    cases hx
    exact ⟨a1, a2, a3, fun hr => (a4 hr).2⟩
  · obtain ⟨r0, s0, l0, l1, hx, rfl, a1, a2, a3, a4⟩ := walk_calls p.iter h
    have hn := new_inv hx
    have e2 : p.len = p.iter.length := rfl
    have key : calls .toBytes l0 = 0 ∧ calls .deriveChild l0 = 0 ∧ calls .fromBytes l0 ≤ 1 ∧
        ((∃ c, r0 = .ok c) → calls .fromBytes l0 = 1) := by
      by_cases hc : seed.length ∈ [16, 32, 64, 128]
      · obtain ⟨b, out, rfl, _⟩ := hn.2 hc
        simp [calls, method]
      · obtain ⟨rfl, rfl, rfl⟩ := hn.1 hc
        simp [calls]
    simp only [calls_append]
    unfold hardenedSteps
    refine ⟨by omega, by omega, by omega, fun hr => ?_⟩
    obtain ⟨d1, d2, d3⟩ := a4 hr
    have := key.2.2.2 d1
    omega
  · unfold hardenedSteps
    rw [List.countP_eq_zero]
    intro i hi
    have := h i hi
    simp only [decide_eq_true_eq]
    omega

theorem sprv_tryFrom_eq {pfx : Prefix} {attrs : ExtendedKeyAttrs} {x : UInt8} {xs : Bytes} (hkb : (x :: xs).length = 33)
    (hxs : xs.length = 32) : SPrv.tryFrom K ⟨pfx, attrs, ⟨x :: xs, hkb⟩⟩ =
      if (pfx.isPrivate && x == 0) = true then (KeyM.fromBytes ⟨xs, hxs⟩ >>= fun sk => pure ⟨sk, attrs⟩)
      else KeyM.lift (.err .crypto) := by
  have htry : tryIntoArr 32 Error.decode xs = .ok ⟨xs, hxs⟩ := by
    unfold tryIntoArr
    rw [dif_pos hxs]
  unfold SPrv.tryFrom
  show (if (pfx.isPrivate && x == 0) = true then (KeyM.lift (tryIntoArr 32 Error.decode xs) >>= fun bytes =>
    KeyM.fromBytes bytes >>= fun sk => pure (⟨sk, attrs⟩ : SPrv K)) else KeyM.lift (.err .crypto)) = _
  rw [htry, lift_ok_bind]

/-- C110. The other operations.  `new` calls `from_bytes` once, and not for a seed of a wrong length.  `public_key`,
`to_bytes` and the text of a key call one method once.  `==` calls `to_bytes` of the left operand twice and no method of the
right one; with answers that are equal it compares the attributes.  `Debug` calls nothing.  Reading a text calls `from_bytes`
once, on the key bytes of the text, and only if the text is otherwise accepted. -/
theorem C110_other_operations (H : Hashes) (s : σ) :
    (∀ seed r s' log, SPrv.new K H seed s = (r, s', log) →
      (seed.length ∉ [16, 32, 64, 128] → r = .err .seedLength ∧ s' = s ∧ log = []) ∧
      (seed.length ∈ [16, 32, 64, 128] → ∃ b out, log = [.fromBytes b out] ∧ b.1 = (master (specHash H) seed).take 32 ∧
        r.map SPrv.privateKey = out ∧ ∀ k, r = .ok k → k.attrs.depth = 0 ∧ k.attrs.parentFingerprint.1 = [0, 0, 0, 0] ∧
          k.attrs.childNumber.n = 0 ∧ k.attrs.chainCode.1 = (master (specHash H) seed).drop 32)) ∧
    (∀ (k : SPrv K) r s' log, k.publicKey s = (r, s', log) →
      (∃ pk, log = [.publicKey k.privateKey (.ok pk)] ∧ r = .ok ⟨pk, k.attrs⟩) ∨
      (log = [.publicKey k.privateKey .panic] ∧ r = .panic)) ∧
    (∀ (k : SPrv K) pfx r s' log, k.toString H pfx s = (r, s', log) →
      (∃ b e, log = [.toBytes k.privateKey (.ok b)] ∧ e.pfx = pfx ∧ e.attrs = k.attrs ∧ e.keyBytes.1 = 0 :: b.1 ∧
        r = ExtendedKey.toString H e) ∨
      (log = [.toBytes k.privateKey .panic] ∧ r = .panic)) ∧
    (∀ (k : SPub K) pfx r s' log, k.toString H pfx s = (r, s', log) →
      (∃ b e, log = [.pubToBytes k.publicKey (.ok b)] ∧ e.pfx = pfx ∧ e.attrs = k.attrs ∧ e.keyBytes.1 = b.1 ∧
        r = ExtendedKey.toString H e) ∨
      (log = [.pubToBytes k.publicKey .panic] ∧ r = .panic)) ∧
    (∀ (a b : SPrv K) r s' log, a.eq b s = (r, s', log) →
      (∃ x y, log = [.toBytes a.privateKey (.ok x), .toBytes a.privateKey (.ok y)] ∧
        ∃ v, r = .ok v ∧ (v = true ↔ x = y ∧ a.attrs = b.attrs)) ∨
      (BrokeOff log r ∧ r = .panic ∧ log.map method <+: [.toBytes, .toBytes] ∧
        ∀ e ∈ log, privateOf e = some a.privateKey)) ∧
    (∀ (k : SPrv K) pretty, ∃ t, k.debug pretty s = (.ok t, s, []) ∧
      ∀ k' : SPrv K, k.attrs = k'.attrs → k'.debug pretty s = (.ok t, s, [])) ∧
    (∀ text r s' log, SPrv.fromStr K H text s = (r, s', log) →
      (∀ e b, ExtendedKey.fromStr H text = .ok e → (∃ c, Letter c ∧ text.take 4 = [c, 'p', 'r', 'v']) →
        e.keyBytes.1 = 0 :: b.1 → ∃ out, log = [.fromBytes b out] ∧ r.map SPrv.privateKey = out ∧
          ∀ k, r = .ok k → k.attrs = e.attrs) ∧
      ((¬∃ e b, ExtendedKey.fromStr H text = .ok e ∧ (∃ c, Letter c ∧ text.take 4 = [c, 'p', 'r', 'v']) ∧
        b.length = 32 ∧ e.keyBytes.1 = 0 :: b) → log = [] ∧ s' = s ∧ ∃ e, r = .err e)) ∧
    (∀ text r s' log, SPub.fromStr K H text s = (r, s', log) →
      (∀ e, ExtendedKey.fromStr H text = .ok e → (∃ c, Letter c ∧ text.take 4 = [c, 'p', 'u', 'b']) →
        ∃ out, log = [.pubFromBytes e.keyBytes out] ∧ r.map SPub.publicKey = out ∧
          ∀ k, r = .ok k → k.attrs = e.attrs) ∧
      ((¬∃ e, ExtendedKey.fromStr H text = .ok e ∧ (∃ c, Letter c ∧ text.take 4 = [c, 'p', 'u', 'b'])) →
        log = [] ∧ s' = s ∧ ∃ e, r = .err e)) := by
  refine ⟨fun seed r s' log h => new_inv h, ?_, ?_, ?_, ?_, ?_, ?_, ?_⟩
  · intro k r s' log h
    rcases bindK_inv h with ⟨pk, s1, l1, l2, h1, h2, rfl⟩ | ⟨e, h1, rfl⟩ | ⟨h1, rfl⟩
    · rcases call'_inv h1 with ⟨a, ha, rfl⟩ | ⟨ha, _⟩
      · cases ha
        cases h2
        exact Or.inl ⟨pk, rfl, rfl⟩
      · cases ha
    · rcases call'_inv h1 with ⟨a, ha, _⟩ | ⟨ha, _⟩ <;> cases ha
    · rcases call'_inv h1 with ⟨a, ha, _⟩ | ⟨_, rfl⟩
      · cases ha
      · exact Or.inr ⟨rfl, rfl⟩
  · intro k pfx r s' log h
    unfold SPrv.toString SPrv.toExtendedKey SPrv.toBytes at h
    rw [assocK] at h
    rcases bindK_inv h with ⟨pk, s1, l1, l2, h1, h2, rfl⟩ | ⟨e, h1, rfl⟩ | ⟨h1, rfl⟩
    · rcases call'_inv h1 with ⟨a, ha, rfl⟩ | ⟨ha, _⟩
      · cases ha
        rw [pure_bindK] at h2
        obtain ⟨rfl, rfl⟩ := lift_inv h2
        exact Or.inl ⟨pk, _, rfl, rfl, rfl, rfl, rfl⟩
      · cases ha
    · rcases call'_inv h1 with ⟨a, ha, _⟩ | ⟨ha, _⟩ <;> cases ha
    · rcases call'_inv h1 with ⟨a, ha, _⟩ | ⟨_, rfl⟩
      · cases ha
      · exact Or.inr ⟨rfl, rfl⟩
  · intro k pfx r s' log h
    unfold SPub.toString SPub.toExtendedKey SPub.toBytes at h
    rw [assocK] at h
    rcases bindK_inv h with ⟨pk, s1, l1, l2, h1, h2, rfl⟩ | ⟨e, h1, rfl⟩ | ⟨h1, rfl⟩
    · rcases call'_inv h1 with ⟨a, ha, rfl⟩ | ⟨ha, _⟩
      · cases ha
        rw [pure_bindK] at h2
        obtain ⟨rfl, rfl⟩ := lift_inv h2
        exact Or.inl ⟨pk, _, rfl, rfl, rfl, rfl, rfl⟩
      · cases ha
    · rcases call'_inv h1 with ⟨a, ha, _⟩ | ⟨ha, _⟩ <;> cases ha
    · rcases call'_inv h1 with ⟨a, ha, _⟩ | ⟨_, rfl⟩
      · cases ha
      · exact Or.inr ⟨rfl, rfl⟩
  · intro a b r s' log h
    unfold SPrv.eq SPrv.toBytes at h
    rcases bindK_inv h with ⟨x, s1, l1, l2, h1, h2, rfl⟩ | ⟨e, h1, rfl⟩ | ⟨h1, rfl⟩
    · rcases call'_inv h1 with ⟨_, ha, rfl⟩ | ⟨ha, _⟩
      · cases ha
        rcases bindK_inv h2 with ⟨y, s2, l3, l4, h3, h4, rfl⟩ | ⟨e, h3, rfl⟩ | ⟨h3, rfl⟩
        · rcases call'_inv h3 with ⟨_, ha, rfl⟩ | ⟨ha, _⟩
          · cases ha
            cases h4
            refine Or.inl ⟨x, y, rfl, _, rfl, ?_⟩
            rw [Bool.and_eq_true, Bool.and_eq_true, Bool.and_eq_true, Bool.and_eq_true]
            simp only [beq_iff_eq]
            rcases a with ⟨ka, da, fa, ⟨ia⟩, ca⟩
            rcases b with ⟨kb, db, fb, ⟨ib⟩, cb⟩
            simp only [ExtendedKeyAttrs.mk.injEq, ChildNumber.mk.injEq]
            tauto
          · cases ha
        · rcases call'_inv h3 with ⟨a, ha, _⟩ | ⟨ha, _⟩ <;> cases ha
        · rcases call'_inv h3 with ⟨_, ha, _⟩ | ⟨_, rfl⟩
          · cases ha
          · exact Or.inr ⟨⟨[_], _, rfl, by simp [ending], by simp [ending], by simp [ending]⟩, rfl, by simp [method],
              by simp [privateOf]⟩
      · cases ha
    · rcases call'_inv h1 with ⟨a, ha, _⟩ | ⟨ha, _⟩ <;> cases ha
    · rcases call'_inv h1 with ⟨_, ha, _⟩ | ⟨_, rfl⟩
      · cases ha
      · exact Or.inr ⟨⟨[], _, rfl, by simp, by simp [ending], by simp [ending]⟩, rfl, by simp [method],
          by simp [privateOf]⟩
  · intro k pretty
    refine ⟨_, rfl, fun k' hk => ?_⟩
    unfold SPrv.debug
    rw [hk]
    rfl
  · intro text r s' log h
    unfold SPrv.fromStr at h
    have hnp := (C43_from_str_exact H text).2.2.1
    cases he : ExtendedKey.fromStr H text with
    | panic => exact absurd he hnp
    | err e =>
      rw [he, lift_err_bind] at h
      cases h
      refine ⟨?_, fun _ => ⟨rfl, rfl, e, rfl⟩⟩
      intro e' b h'
      cases h'
    | ok e =>
      rw [he, lift_ok_bind] at h
      rw [← isPrivate_iff he]
      obtain ⟨pfx, attrs, ⟨kb, hkb⟩⟩ := e
      rcases kb with _ | ⟨x, xs⟩
      · cases hkb
      have hxs : xs.length = 32 := by simpa using hkb
      rw [sprv_tryFrom_eq hkb hxs] at h
      by_cases hc : (pfx.isPrivate && x == 0) = true
      · rw [if_pos hc] at h
        rw [Bool.and_eq_true, beq_iff_eq] at hc
        obtain ⟨hc1, rfl⟩ := hc
        refine ⟨?_, fun h' => absurd ⟨_, xs, rfl, hc1, hxs, rfl⟩ h'⟩
        intro e b h' _ hb
        cases h'
        have : b = ⟨xs, hxs⟩ := Subtype.ext (List.cons.inj hb).2.symm
        subst this
        rcases bindK_inv h with ⟨sk, s1, l1, l2, h1, h2, rfl⟩ | ⟨e, h1, rfl⟩ | ⟨h1, rfl⟩
        · cases h2
          rw [call_inv h1]
          refine ⟨.ok sk, rfl, rfl, ?_⟩
          intro k hk
          cases hk
          rfl
        · rw [call_inv h1]
          exact ⟨.err e, rfl, rfl, by simp⟩
        · rw [call_inv h1]
          exact ⟨.panic, rfl, rfl, by simp⟩
      · rw [if_neg hc] at h
        cases h
        refine ⟨?_, fun _ => ⟨rfl, rfl, _, rfl⟩⟩
        intro e b h' h1 h2
        cases h'
        exfalso
        apply hc
        rw [Bool.and_eq_true, beq_iff_eq]
        exact ⟨h1, (List.cons.inj h2).1⟩
  · intro text r s' log h
    unfold SPub.fromStr at h
    have hnp := (C43_from_str_exact H text).2.2.1
    cases he : ExtendedKey.fromStr H text with
    | panic => exact absurd he hnp
    | err e =>
      rw [he, lift_err_bind] at h
      cases h
      refine ⟨?_, fun _ => ⟨rfl, rfl, e, rfl⟩⟩
      intro e' h'
      cases h'
    | ok e =>
      rw [he, lift_ok_bind] at h
      rw [← isPublic_iff he]
      unfold SPub.tryFrom at h
      by_cases hc : e.pfx.isPublic = true
      · rw [if_pos hc] at h
        refine ⟨?_, fun h' => absurd ⟨_, rfl, hc⟩ h'⟩
        intro e' h' _
        cases h'
        rcases bindK_inv h with ⟨sk, s1, l1, l2, h1, h2, rfl⟩ | ⟨e', h1, rfl⟩ | ⟨h1, rfl⟩
        · cases h2
          rw [call_inv h1]
          refine ⟨.ok sk, rfl, rfl, ?_⟩
          intro k hk
          cases hk
          rfl
        · rw [call_inv h1]
          exact ⟨.err e', rfl, rfl, by simp⟩
        · rw [call_inv h1]
          exact ⟨.panic, rfl, rfl, by simp⟩
      · rw [if_neg hc] at h
        cases h
        exact ⟨fun e' h' h1 => absurd h1 (by cases h'; exact hc), fun _ => ⟨rfl, rfl, _, rfl⟩⟩

/-- The implementation, in the state `s`, answers the call as recorded and is then in the state `s'`. -/
def Answers (K : StatefulKeys σ) (s s' : σ) : KeyEvent K.SK K.PK → Prop
  | .fromBytes b out => K.fromBytes b s = (out, s')
  | .toBytes k out => K.toBytes k s = (out, s')
  | .deriveChild k t out => K.deriveChild k t s = (out, s')
  | .publicKey k out => K.publicKey k s = (out, s')
  | .pubFromBytes b out => K.pubFromBytes b s = (out, s')
  | .pubToBytes p out => K.pubToBytes p s = (out, s')
  | .pubDeriveChild p t out => K.pubDeriveChild p t s = (out, s')
  | .fingerprint p out => K.fingerprint p s = (out, s')

/-- The calls happen one after the other, and nothing else touches the state of the implementation. -/
def Transcript (K : StatefulKeys σ) : σ → List (KeyEvent K.SK K.PK) → σ → Prop
  | s, [], s' => s' = s
  | s, e :: log, s' => ∃ s1, Answers K s s1 e ∧ Transcript K s1 log s'

/-- The recorded calls of the code are the calls it made. -/
def Faithful {α : Type} (x : KeyM K α) : Prop := ∀ s, Transcript K s (x s).2.2 (x s).2.1

theorem transcript_append {s s1 s' : σ} {l1 l2 : List (KeyEvent K.SK K.PK)} (h1 : Transcript K s l1 s1)
    (h2 : Transcript K s1 l2 s') : Transcript K s (l1 ++ l2) s' := by
  induction l1 generalizing s with
  | nil => cases h1; exact h2
  | cons e l ih =>
    obtain ⟨s2, h3, h4⟩ := h1
    exact ⟨s2, h3, ih h4⟩

theorem faithful_bind {α β : Type} {x : KeyM K α} {f : α → KeyM K β} (hx : Faithful x) (hf : ∀ a, Faithful (f a)) :
    Faithful (x >>= f) := by
  intro s
  have h := hx s
  change Transcript K s (KeyM.bind x f s).2.2 (KeyM.bind x f s).2.1
  unfold KeyM.bind
  rcases hxs : x s with ⟨o, s1, l1⟩
  rw [hxs] at h
  cases o with
  | ok a => exact transcript_append h (hf a s1)
  | err e => exact h
  | panic => exact h

theorem faithful_lift {α : Type} (r : Res Error α) : Faithful (KeyM.lift r : KeyM K α) := fun _ => rfl
theorem faithful_pure {α : Type} (a : α) : Faithful (pure a : KeyM K α) := fun _ => rfl
theorem faithful_fromBytes (b : ByteArr 32) : Faithful (KeyM.fromBytes b : KeyM K K.SK) := fun _ => ⟨_, rfl, rfl⟩
theorem faithful_toBytes (k : K.SK) : Faithful (KeyM.toBytes k : KeyM K (ByteArr 32)) := fun _ => ⟨_, rfl, rfl⟩
theorem faithful_deriveChild (k : K.SK) (t : ByteArr 32) : Faithful (KeyM.deriveChild k t : KeyM K K.SK) := fun _ => ⟨_, rfl, rfl⟩
theorem faithful_publicKey (k : K.SK) : Faithful (KeyM.publicKey k : KeyM K K.PK) := fun _ => ⟨_, rfl, rfl⟩
theorem faithful_pubFromBytes (b : ByteArr 33) : Faithful (KeyM.pubFromBytes b : KeyM K K.PK) := fun _ => ⟨_, rfl, rfl⟩
theorem faithful_pubToBytes (p : K.PK) : Faithful (KeyM.pubToBytes p : KeyM K (ByteArr 33)) := fun _ => ⟨_, rfl, rfl⟩
theorem faithful_pubDeriveChild (p : K.PK) (t : ByteArr 32) : Faithful (KeyM.pubDeriveChild p t : KeyM K K.PK) :=
  fun _ => ⟨_, rfl, rfl⟩
theorem faithful_fingerprint (p : K.PK) : Faithful (KeyM.fingerprint p : KeyM K (ByteArr 4)) := fun _ => ⟨_, rfl, rfl⟩

theorem faithful_ite {α : Type} {c : Prop} [Decidable c] {x y : KeyM K α} (hx : Faithful x) (hy : Faithful y) :
    Faithful (if c then x else y) := by
  split
  · exact hx
  · exact hy

theorem faithful_foldl {α : Type} (f : α → ChildNumber → KeyM K α) (hf : ∀ a i, Faithful (f a i)) (p : List ChildNumber)
    {x : KeyM K α} (hx : Faithful x) : Faithful (p.foldl (fun m i => m >>= fun key => f key i) x) := by
  induction p generalizing x with
  | nil => exact hx
  | cons i p ih => exact ih (faithful_bind hx fun a => hf a i)

/-- C110. In every operation the calls shown above are the calls that happen, in that order, and the state of the
implementation changes by these calls only. -/
theorem C110_transcript (H : Hashes) :
    (∀ seed, Faithful (SPrv.new K H seed)) ∧
    (∀ seed p, Faithful (SPrv.newFromPath K H seed p)) ∧
    (∀ (k : SPrv K) i, Faithful (k.deriveChild H i)) ∧
    (∀ (k : SPrv K) p, Faithful (k.deriveFromPath H p)) ∧
    (∀ k : SPrv K, Faithful k.publicKey) ∧
    (∀ k : SPrv K, Faithful k.toBytes) ∧
    (∀ (k : SPrv K) pfx, Faithful (k.toExtendedKey pfx) ∧ Faithful (k.toString H pfx)) ∧
    (∀ a b : SPrv K, Faithful (a.eq b)) ∧
    (∀ e, Faithful (SPrv.tryFrom K e)) ∧
    (∀ text, Faithful (SPrv.fromStr K H text)) ∧
    (∀ (k : SPub K) i, Faithful (k.deriveChild H i)) ∧
    (∀ (k : SPub K) p, Faithful (k.deriveFromPath H p)) ∧
    (∀ k : SPub K, Faithful k.toBytes ∧ Faithful k.fingerprint) ∧
    (∀ (k : SPub K) pfx, Faithful (k.toExtendedKey pfx) ∧ Faithful (k.toString H pfx)) ∧
    (∀ e, Faithful (SPub.tryFrom K e)) ∧
    (∀ text, Faithful (SPub.fromStr K H text)) := by
  have hnew : ∀ seed, Faithful (SPrv.new K H seed) := fun seed =>
    faithful_ite (faithful_lift _) (faithful_bind (faithful_lift _) fun _ => faithful_bind (faithful_fromBytes _) fun _ =>
      faithful_bind (faithful_lift _) fun _ => faithful_pure _)
  have hin : ∀ (k : SPrv K) i, Faithful (k.hmacInput i) := fun k i =>
    faithful_ite (faithful_bind (faithful_toBytes _) fun _ => faithful_pure _)
      (faithful_bind (faithful_publicKey _) fun _ => faithful_bind (faithful_pubToBytes _) fun _ => faithful_pure _)
  have hchild : ∀ (k : SPrv K) i, Faithful (k.deriveChild H i) := fun k i =>
    faithful_bind (faithful_lift _) fun _ => faithful_bind (hin k i) fun _ => faithful_bind (faithful_lift _) fun _ =>
      faithful_bind (faithful_deriveChild _ _) fun _ => faithful_bind (faithful_publicKey _) fun _ =>
        faithful_bind (faithful_fingerprint _) fun _ => faithful_bind (faithful_lift _) fun _ => faithful_pure _
  have hpchild : ∀ (k : SPub K) i, Faithful (k.deriveChild H i) := fun k i =>
    faithful_ite (faithful_lift _) (faithful_bind (faithful_lift _) fun _ => faithful_bind (faithful_pubToBytes _) fun _ =>
      faithful_bind (faithful_lift _) fun _ => faithful_bind (faithful_pubDeriveChild _ _) fun _ =>
        faithful_bind (faithful_fingerprint _) fun _ => faithful_bind (faithful_lift _) fun _ => faithful_pure _)
  have hext : ∀ (k : SPrv K) pfx, Faithful (k.toExtendedKey pfx) := fun k pfx =>
    faithful_bind (faithful_toBytes _) fun _ => faithful_pure _
  have hpext : ∀ (k : SPub K) pfx, Faithful (k.toExtendedKey pfx) := fun k pfx =>
    faithful_bind (faithful_pubToBytes _) fun _ => faithful_pure _
  have htry : ∀ e, Faithful (SPrv.tryFrom K e) := fun e =>
    faithful_ite (faithful_bind (faithful_lift _) fun _ => faithful_bind (faithful_fromBytes _) fun _ => faithful_pure _)
      (faithful_lift _)
  have hptry : ∀ e, Faithful (SPub.tryFrom K e) := fun e =>
    faithful_ite (faithful_bind (faithful_pubFromBytes _) fun _ => faithful_pure _) (faithful_lift _)
  exact ⟨hnew, fun seed p => faithful_foldl _ hchild _ (hnew seed), hchild,
    fun k p => faithful_foldl _ hchild _ (faithful_pure k),
    fun k => faithful_bind (faithful_publicKey _) fun _ => faithful_pure _, fun k => faithful_toBytes _,
    fun k pfx => ⟨hext k pfx, faithful_bind (hext k pfx) fun _ => faithful_lift _⟩,
    fun a b => faithful_bind (faithful_toBytes _) fun _ => faithful_bind (faithful_toBytes _) fun _ => faithful_pure _,
    htry, fun text => faithful_bind (faithful_lift _) htry, hpchild,
    fun k p => faithful_foldl _ hpchild _ (faithful_pure k),
    fun k => ⟨faithful_pubToBytes _, faithful_fingerprint _⟩,
    fun k pfx => ⟨hpext k pfx, faithful_bind (hpext k pfx) fun _ => faithful_lift _⟩,
    hptry, fun text => faithful_bind (faithful_lift _) hptry⟩

/-- Keys of an implementation without state. -/
def plainPrv {K : KeyImpl} (k : SPrv K.stateful) : GPrv K := ⟨k.privateKey, k.attrs⟩
def plainPub {K : KeyImpl} (k : SPub K.stateful) : GPub K := ⟨k.publicKey, k.attrs⟩

/-- What the code returns, for an implementation without state. -/
def result {K : KeyImpl} {α : Type} (x : KeyM K.stateful α) : Res Error α := (x ()).1

theorem result_bind {K : KeyImpl} {α β : Type} (x : KeyM K.stateful α) (f : α → KeyM K.stateful β) :
    result (x >>= f) = result x >>= fun a => result (f a) := by
  show (KeyM.bind x f ()).1 = _
  unfold KeyM.bind result
  rcases x () with ⟨o, s1, l1⟩
  cases o <;> rfl

theorem result_ite {K : KeyImpl} {α : Type} {c : Prop} [Decidable c] (x y : KeyM K.stateful α) :
    result (if c then x else y) = if c then result x else result y := by
  split <;> rfl

theorem result_foldl {K : KeyImpl} {α β : Type} (g : α → β) (f : α → ChildNumber → KeyM K.stateful α)
    (f' : β → ChildNumber → Res Error β) (hf : ∀ a i, (result (f a i)).map g = f' (g a) i) (p : List ChildNumber)
    (x : KeyM K.stateful α) (y : Res Error β) (hx : (result x).map g = y) :
    (result (p.foldl (fun m i => m >>= fun key => f key i) x)).map g = p.foldl (fun m i => m >>= fun key => f' key i) y := by
  induction p generalizing x y with
  | nil => exact hx
  | cons i p ih =>
    rw [List.foldl_cons, List.foldl_cons]
    apply ih
    rw [result_bind, ← hx]
    cases result x with
    | ok a => exact hf a i
    | err e => rfl
    | panic => rfl

section
variable {K : KeyImpl}
theorem result_lift {α : Type} (r : Res Error α) : result (KeyM.lift r : KeyM K.stateful α) = r := rfl
theorem result_pure {α : Type} (a : α) : result (pure a : KeyM K.stateful α) = .ok a := rfl
theorem result_fromBytes (b : ByteArr 32) : result (KeyM.fromBytes b : KeyM K.stateful _) = K.fromBytes b := rfl
theorem result_toBytes (k : K.SK) : result (KeyM.toBytes k : KeyM K.stateful _) = .ok (K.toBytes k) := rfl
theorem result_deriveChild (k : K.SK) (t : ByteArr 32) :
    result (KeyM.deriveChild k t : KeyM K.stateful _) = K.deriveChild k t := rfl
theorem result_publicKey (k : K.SK) : result (KeyM.publicKey k : KeyM K.stateful _) = .ok (K.publicKey k) := rfl
theorem result_pubFromBytes (b : ByteArr 33) : result (KeyM.pubFromBytes b : KeyM K.stateful _) = K.pubFromBytes b := rfl
theorem result_pubToBytes (p : K.PK) : result (KeyM.pubToBytes p : KeyM K.stateful _) = .ok (K.pubToBytes p) := rfl
theorem result_pubDeriveChild (p : K.PK) (t : ByteArr 32) :
    result (KeyM.pubDeriveChild p t : KeyM K.stateful _) = K.pubDeriveChild p t := rfl
theorem result_fingerprint (p : K.PK) : result (KeyM.fingerprint p : KeyM K.stateful _) = .ok (K.fingerprint p) := rfl
end

theorem map_bind {ε α β γ : Type} (x : Res ε α) (f : α → Res ε β) (g : β → γ) :
    (x >>= f).map g = x >>= fun a => (f a).map g := by
  cases x <;> rfl

/-- C110. For an implementation whose answers depend on the arguments only, the operations return what C88 to C90 say. -/
theorem C110_stateless (K : KeyImpl) (H : Hashes) :
    (∀ seed, (result (SPrv.new K.stateful H seed)).map plainPrv = GPrv.new K H seed) ∧
    (∀ seed p, (result (SPrv.newFromPath K.stateful H seed p)).map plainPrv = GPrv.newFromPath K H seed p) ∧
    (∀ (k : SPrv K.stateful) i, (result (k.deriveChild H i)).map plainPrv = (plainPrv k).deriveChild H i) ∧
    (∀ (k : SPrv K.stateful) p, (result (k.deriveFromPath H p)).map plainPrv = (plainPrv k).deriveFromPath H p) ∧
    (∀ k : SPrv K.stateful, (result k.publicKey).map plainPub = .ok (plainPrv k).publicKey) ∧
    (∀ k : SPrv K.stateful, result k.toBytes = .ok (plainPrv k).toBytes) ∧
    (∀ (k : SPrv K.stateful) pfx, result (k.toString H pfx) = (plainPrv k).toString H pfx) ∧
    (∀ a b : SPrv K.stateful, result (a.eq b) = .ok ((plainPrv a).eq (plainPrv b))) ∧
    (∀ text, (result (SPrv.fromStr K.stateful H text)).map plainPrv = GPrv.fromStr K H text) ∧
    (∀ (k : SPub K.stateful) i, (result (k.deriveChild H i)).map plainPub = (plainPub k).deriveChild H i) ∧
    (∀ (k : SPub K.stateful) p, (result (k.deriveFromPath H p)).map plainPub = (plainPub k).deriveFromPath H p) ∧
    (∀ k : SPub K.stateful, result k.toBytes = .ok (plainPub k).toBytes) ∧
    (∀ (k : SPub K.stateful) pfx, result (k.toString H pfx) = (plainPub k).toString H pfx) ∧
    (∀ text, (result (SPub.fromStr K.stateful H text)).map plainPub = GPub.fromStr K H text) := by
  have hnew : ∀ seed, (result (SPrv.new K.stateful H seed)).map plainPrv = GPrv.new K H seed := by
    intro seed
    unfold SPrv.new GPrv.new
    split
    · rfl
    · simp only [result_bind, result_lift, result_pure, map_bind, tryInto_left, tryInto_right, Res.ok_bind]
      rfl
  have hchild : ∀ (k : SPrv K.stateful) i, (result (k.deriveChild H i)).map plainPrv = (plainPrv k).deriveChild H i := by
    intro k i
    unfold SPrv.deriveChild GPrv.deriveChild SPrv.hmacInput GPrv.hmacInput
    by_cases hi : i.isHardened = true
    · simp only [if_pos hi, result_bind, result_lift, result_pure, map_bind, tryInto_left, tryInto_right, Res.ok_bind]
      rfl
    · simp only [if_neg hi, result_bind, result_lift, result_pure, map_bind, tryInto_left, tryInto_right, Res.ok_bind]
      rfl
  have hpchild : ∀ (k : SPub K.stateful) i, (result (k.deriveChild H i)).map plainPub = (plainPub k).deriveChild H i := by
    intro k i
    unfold SPub.deriveChild GPub.deriveChild
    split
    · rfl
    · simp only [result_bind, result_lift, result_pure, map_bind, tryInto_left, tryInto_right, Res.ok_bind]
      rfl
  refine ⟨hnew, fun seed p => result_foldl _ _ _ hchild _ _ _ (hnew seed), hchild,
    fun k p => result_foldl _ _ _ hchild _ _ _ rfl, fun k => rfl, fun k => rfl, fun k pfx => ?_, fun a b => rfl, ?_, hpchild,
    fun k p => result_foldl _ _ _ hpchild _ _ _ rfl, fun k => rfl, fun k pfx => ?_, ?_⟩
  · unfold SPrv.toString SPrv.toExtendedKey SPrv.toBytes
    simp only [result_bind, result_lift, result_pure]
    rfl
  · intro text
    unfold SPrv.fromStr GPrv.fromStr
    rw [result_bind, result_lift, map_bind]
    congr 1
    funext e
    unfold SPrv.tryFrom GPrv.tryFrom
    split
    · simp only [result_bind, result_lift, result_pure, map_bind]
      rfl
    · rfl
  · unfold SPub.toString SPub.toExtendedKey SPub.toBytes
    simp only [result_bind, result_lift, result_pure]
    rfl
  · intro text
    unfold SPub.fromStr GPub.fromStr
    rw [result_bind, result_lift, map_bind]
    congr 1
    funext e
    unfold SPub.tryFrom GPub.tryFrom
    split
    · simp only [result_bind, result_pure, map_bind]
      rfl
    · rfl

/-- A key module for the examples.  It keeps the key to itself (`to_bytes` panics) and counts the calls of `derive_child`;
after three of them it is locked. -/
def lockedModule : StatefulKeys Nat where
  SK := Nat
  PK := Nat
  fromBytes := fun b s => (.ok (beNat b.1), s)
  toBytes := fun _ s => (.panic, s)
  deriveChild := fun k t s => if s < 3 then (.ok ((k + beNat t.1) % 2 ^ 256), s + 1) else (.err .crypto, s + 1)
  publicKey := fun k s => (.ok k, s)
  pubFromBytes := fun b s => (.ok (beNat (b.1.drop 1)), s)
  pubToBytes := fun k s => (.ok ⟨2 :: natBE 32 k, by simp⟩, s)
  pubDeriveChild := fun k t s => (.ok ((k + beNat t.1) % 2 ^ 256), s)
  fingerprint := fun k s => (.ok ⟨natBE 4 k, by simp⟩, s)

instance : DecidableEq lockedModule.SK := inferInstanceAs (DecidableEq Nat)
instance : DecidableEq lockedModule.PK := inferInstanceAs (DecidableEq Nat)

-- a path without hardened steps works although the key is never handed out
example : let x := SPrv.newFromPath lockedModule (constHash 5) (List.replicate 64 1) ⟨[⟨3⟩, ⟨1⟩]⟩ 0
    x.1.map (fun k => (k.privateKey, k.attrs.depth, k.attrs.parentFingerprint.1)) = .ok ((15 : Nat), (2 : UInt8), ([0, 0, 0, 10] : Bytes)) ∧
    x.2.1 = 2 ∧ x.2.2.map method = [.fromBytes, .publicKey, .pubToBytes, .deriveChild, .publicKey, .fingerprint,
      .publicKey, .pubToBytes, .deriveChild, .publicKey, .fingerprint] := by
  decide +kernel

-- the panic and the error of the module end the walk
example : let x := SPrv.newFromPath lockedModule (constHash 5) (List.replicate 64 1) ⟨[⟨3⟩, ⟨0x80000001⟩, ⟨1⟩]⟩ 0
    x.1.map (fun _ => ()) = .panic ∧ x.2.1 = 1 ∧ x.2.2.map method = [.fromBytes, .publicKey, .pubToBytes, .deriveChild, .publicKey,
      .fingerprint, .toBytes] := by
  decide +kernel
example : let x := SPrv.newFromPath lockedModule (constHash 5) (List.replicate 64 1) ⟨[⟨3⟩, ⟨0x80000001⟩, ⟨1⟩]⟩ 3
    x.1.map (fun _ => ()) = .err .crypto ∧ x.2.1 = 4 ∧
      x.2.2.map method = [.fromBytes, .publicKey, .pubToBytes, .deriveChild] := by
  decide +kernel

end Kms.Props
