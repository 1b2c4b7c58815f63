import Verif.Model.KeyMem
import Verif.Props.KeyText
import Verif.Props.DerivationMore
/-
C115: what the operations on extended private keys leave in the byte arrays they declare.
-/
namespace Kms.Props
open Kms.Bip32 Kms.Spec Kms.Spec.Bip32
open Kms.Spec.Secp (n)

/-- **C115** Keeping track of the arrays changes no result. -/
theorem C115_same_results (H : Hashes) (k o : XPrv) (p : Prefix) (s : Str) (seed : Bytes) (i : ChildNumber) :
    (k.toStringMem H p).out = k.toString H p ∧ (XPrv.fromStrMem H s).out = XPrv.fromStr H s ∧
    (k.eqMem o).out = .ok (k.eq o) ∧ (XPrv.newMem H seed).out = XPrv.new H seed ∧
    (k.deriveChildMem H i).out = k.deriveChild H i := by
  refine ⟨?_, ?_, rfl, ?_, ?_⟩
  · obtain ⟨t, h, _⟩ := ExtendedKey.writeBase58_ok H (k.toExtendedKey p)
    unfold XPrv.toString ExtendedKey.toString
    rw [h]
    show (Heap.bind (k.toExtendedKeyMem p) _).out = _
    simp only [Heap.bind, XPrv.toExtendedKeyMem, bind, leave, pure, ExtendedKey.toStringMem, ExtendedKey.writeBase58Mem, h,
      ExtendedKey.dropMem]
  · unfold XPrv.fromStrMem XPrv.fromStr ExtendedKey.fromStrMem ExtendedKey.fromStr
    show (Heap.bind _ _).out = _
    unfold Heap.bind
    rcases (ExtendedKey.fromStrBuf H s).2 with a | e | _
    · rfl
    · rfl
    · rfl
  · unfold XPrv.newMem
    split
    · unfold XPrv.new
      rw [if_pos ‹_›]
      rfl
    · rfl
  · unfold XPrv.deriveChildMem
    rcases checkedSucc_cases k.attrs.depth with ⟨_, hd, _⟩ | ⟨_, hd⟩
    · rw [hd]
      simp only
      split <;> rfl
    · rw [XPrv.deriveChild_eq, hd]
      rfl

/-- **C115** `==` on extended private keys leaves only zeros in the copies it makes of the private key. -/
theorem C115_eq_leaves_zeros (k o : XPrv) : (k.eqMem o).freed = [List.replicate 32 0, List.replicate 32 0] := by
  show [zeroizeArr k.toBytes] ++ ([zeroizeArr k.toBytes] ++ []) = _
  rw [zeroizeArr_eq]
  rfl

/-- **C115** Reading a text that is an extended key leaves its chain code, and zeros where the payload and the key bytes were,
whether or not the text is one of a private key. -/
theorem C115_from_str_leaves_chain_code (H : Hashes) (s : Str) (e : ExtendedKey) (h : ExtendedKey.fromStr H s = .ok e) :
    (XPrv.fromStrMem H s).freed = [List.replicate 82 0, List.replicate 33 0, e.attrs.chainCode.1] := by
  obtain ⟨h1, h2, h3⟩ := (ExtendedKey.fromStr_iff H s e).1 h
  have hb := ExtendedKey.fromStrBuf_ok H s e h1 h2 h3
  unfold XPrv.fromStrMem ExtendedKey.fromStrMem
  rw [hb]
  show [List.replicate 82 0] ++ ([e.drop] ++ ([e.attrs.chainCode.1] ++ [])) = _
  rw [show e.drop = List.replicate 33 0 from zeroizeArr_eq _]
  rfl

/-- **C115** `to_string`, whose result is wiped when it is dropped, leaves the private key and the whole text in arrays that
are not: one has the 32 bytes of the key, another begins with the text.  Only the payload and the bytes of the extended key are
overwritten. -/
theorem C115_to_string_leaves_key_and_text (H : Hashes) (k : XPrv) (p : Prefix) :
    ∃ text zeros, k.toString H p = .ok text ∧ (k.toStringMem H p).freed =
      [ser256 k.privateKey.k, List.replicate 78 0, utf8 text ++ zeros, List.replicate 33 0, k.attrs.chainCode.1] := by
  obtain ⟨t, h, _⟩ := ExtendedKey.writeBase58_ok H (k.toExtendedKey p)
  refine ⟨t, List.replicate (112 - (utf8 t).length) 0, ?_, ?_⟩
  · unfold XPrv.toString ExtendedKey.toString
    rw [h]
  · show (Heap.bind (k.toExtendedKeyMem p) _).freed = _
    simp only [Heap.bind, XPrv.toExtendedKeyMem, bind, leave, pure, ExtendedKey.toStringMem, ExtendedKey.writeBase58Mem, h,
      ExtendedKey.dropMem, ExtendedKey.MAX_BASE58_SIZE]
    rw [show (k.toExtendedKey p).drop = List.replicate 33 0 from zeroizeArr_eq _]
    rw [show k.toBytes.1 = ser256 k.privateKey.k from (ser256_eq _).symm]
    rfl

/-- **C115** `new` leaves the master key and its chain code, if it got as far as computing them. -/
theorem C115_new_leaves_master_key (H : Hashes) (seed : Bytes) :
    (XPrv.newMem H seed).freed = (if seed.length ∈ [16, 32, 64, 128] then [master (specHash H) seed] else []) ∧
    ∀ k, XPrv.new H seed = .ok k →
      k.privateKey.k = IL (master (specHash H) seed) ∧ k.attrs.chainCode.1 = IR (master (specHash H) seed) := by
  constructor
  · unfold XPrv.newMem
    by_cases h : seed.length ∈ [16, 32, 64, 128]
    · have h' : ([16, 32, 64, 128] : List Nat).contains seed.length = true := by simpa using h
      rw [if_neg (by rw [h']; decide), if_pos h]
      show [(H.hmacSha512 BIP39_DOMAIN_SEPARATOR seed).1] ++ [] = _
      rw [hmacSha512_spec]
      rfl
    · have h' : ([16, 32, 64, 128] : List Nat).contains seed.length = false := by simpa using h
      rw [if_pos (by rw [h']; decide), if_neg h]
      rfl
  · intro k hk
    have := ((C36_master_key H seed).2.2.1 k).1 hk
    exact ⟨this.2.2.2.1, this.2.2.2.2.1⟩

/-- **C115** `derive_child` below the last level leaves BIP32's `I`, from which and the key of the child the key of the parent is
found; for a hardened child also the key of the parent itself.  At the last level it leaves nothing. -/
theorem C115_derive_child_leaves (H : Hashes) (k : XPrv) (i : ChildNumber) :
    let I := I (specHash H) k.attrs.chainCode.1 k.privateKey.k i.n.toNat
    (k.deriveChildMem H i).freed =
      (if k.attrs.depth.toNat = 255 then []
       else (if 2 ^ 31 ≤ i.n.toNat then [ser256 k.privateKey.k] else []) ++ [I.take 32, I]) ∧
    ∀ c, k.deriveChild H i = .ok c → k.privateKey.k = (c.privateKey.k + (n - IL I)) % n := by
  intro J
  have hJ : (H.hmacSha512 k.attrs.chainCode.1 (k.hmacInput i)).1 = J := XPrv.hmac_eq H k i
  constructor
  · unfold XPrv.deriveChildMem
    rcases checkedSucc_cases k.attrs.depth with ⟨h0, hd, _⟩ | ⟨h0, hd⟩
    · rw [hd, if_neg (show ¬ k.attrs.depth.toNat = 255 by omega)]
      simp only [hJ]
      by_cases hh : i.isHardened = true
      · rw [if_pos hh, if_pos ((ChildNumber.isHardened_iff i).1 hh),
          show (PrivateKey.toBytes k.privateKey).1 = ser256 k.privateKey.k from (ser256_eq _).symm]
        rfl
      · rw [if_neg hh, if_neg (fun h => hh ((ChildNumber.isHardened_iff i).2 h))]
        rfl
    · rw [hd, if_pos h0]
      rfl
  · intro c hc
    obtain ⟨_, h1, h2, _, h4, _⟩ := (C34_child_key H k c i).1 hc
    have hk : k.privateKey.k < n := by
      have := k.privateKey.lt
      rwa [Secp.n_eq] at this
    rw [h4]
    change _ = ((IL J + k.privateKey.k) % n + (n - IL J)) % n
    rw [Nat.mod_add_mod, show IL J + k.privateKey.k + (n - IL J) = k.privateKey.k + n by
      have : IL J < n := h2
      omega, Nat.add_mod_right, Nat.mod_eq_of_lt hk]

/-- The text of a key, read again: the key is returned, and its chain code is what is left. -/
example (H : Hashes) : ∃ s, (XPrv.fromStrMem H s).out = .ok exKey ∧
    (XPrv.fromStrMem H s).freed = [List.replicate 82 0, List.replicate 33 0, exKey.attrs.chainCode.1] := by
  obtain ⟨s, _, hs⟩ := C38_xprv_round_trip H exKey .XPRV (by decide +kernel)
  refine ⟨s, by rw [(C115_same_results H exKey exKey .XPRV s [] ⟨0⟩).2.1, hs], ?_⟩
  unfold XPrv.fromStr at hs
  obtain ⟨e, he, ht⟩ := Res.bind_eq_ok.1 hs
  rw [C115_from_str_leaves_chain_code H s e he]
  unfold XPrv.tryFrom at ht
  split at ht
  · obtain ⟨b, _, ht⟩ := Res.bind_eq_ok.1 ht
    obtain ⟨k, _, ht⟩ := Res.bind_eq_ok.1 ht
    have hx : (⟨k, e.attrs⟩ : XPrv) = exKey := by injection ht
    rw [← hx]
  · cases ht

/-- A hardened child: three arrays, the first of which is the key. -/
example : ((exKey.deriveChildMem (constHash 2) ⟨0x80000000⟩).freed.map List.length) = [32, 32, 64] ∧
    (exKey.deriveChildMem (constHash 2) ⟨0x80000000⟩).freed.head? = some (ser256 exKey.privateKey.k) ∧
    (exKey.deriveChildMem (constHash 2) ⟨5⟩).freed.length = 2 := by
  decide +kernel

end Kms.Props
