import Verif.Model.Conversions
import Verif.Props.Path
import Verif.Props.ExtendedKey
import Verif.Props.PhraseCount
/-
C122: conversions between the public types and plain values lose nothing.
-/
namespace Kms.Props
open Kms Kms.Bip32 Kms.Bip39 Kms.Spec

/-- **C122** Child numbers: `u32::from` and `ChildNumber::from` are inverse to each other, on every `u32`.  The number made from
`n` is the one `new` makes from its lower 31 bits and its top bit, the one `from_bytes` makes from the bytes of `n`, and
its text is the one of that index, with an apostrophe from 2^31 on. -/
theorem C122_child_number_conversions :
    (∀ n, (ChildNumber.fromU32 n).intoU32 = n) ∧ (∀ c : ChildNumber, ChildNumber.fromU32 c.intoU32 = c) ∧
    (∀ n : BitVec 32, ∃ i h, ChildNumber.new i h = .ok (.fromU32 n) ∧ n.toNat = i.toNat + (if h then 2 ^ 31 else 0)) ∧
    (∀ (n : BitVec 32) (b : ByteArr 4), b.1 = be4 n.toNat → ChildNumber.fromBytes b = .fromU32 n) ∧
    (∀ n : BitVec 32, (ChildNumber.fromU32 n).display =
      if n.toNat < 2 ^ 31 then Nat.toDigits 10 n.toNat else Nat.toDigits 10 (n.toNat - 2 ^ 31) ++ ['\'']) := by
  have hnew : ∀ n : BitVec 32, ∃ i h, ChildNumber.new i h = .ok (.fromU32 n) ∧
      n.toNat = i.toNat + (if h then 2 ^ 31 else 0) := by
    intro n
    obtain ⟨p, hp, -⟩ := C23_child_number_new.2.2.2 (.fromU32 n)
    exact ⟨p.1, p.2, hp, (C23_child_number_new.2.1 _ _ _ hp).2.2⟩
  refine ⟨fun _ => rfl, fun _ => rfl, hnew, ?_, ?_⟩
  · intro n b hb
    have : b = (ChildNumber.fromU32 n).toBytes := Subtype.ext (by rw [hb]; exact (be4_eq n).symm)
    rw [this, C24_child_number_bytes.1]
  · intro n
    obtain ⟨i, h, hn, e⟩ := hnew n
    obtain ⟨h1, h2, -⟩ := C23_child_number_new.2.1 _ _ _ hn
    have hi := (C23_child_number_new.1 i h).1 ⟨_, hn⟩
    unfold ChildNumber.display
    rw [h1, h2]
    cases h with
    | false =>
      have e' : n.toNat = i.toNat := by simpa using e
      rw [if_pos (c := n.toNat < 2 ^ 31) (by omega), e']
      simp [decimal]
    | true =>
      have e' : n.toNat = i.toNat + 2 ^ 31 := by simpa using e
      rw [if_neg (c := n.toNat < 2 ^ 31) (by omega), e', Nat.add_sub_cancel]
      simp [decimal]

/-- **C122** Paths: the items of `into_iter` are those of `as_ref` and `iter`; putting them one by one or all at once onto the
empty path gives the path back. -/
theorem C122_path_conversions (p : DerivationPath) :
    p.asRef = p.iter ∧ p.intoIter = p.iter ∧ DerivationPath.default.extend p.intoIter = p ∧
    p.asRef.foldl DerivationPath.push DerivationPath.default = p := by
  refine ⟨rfl, rfl, ?_, ?_⟩
  · cases p; rfl
  · have : ∀ (l : List ChildNumber) (q : DerivationPath), l.foldl DerivationPath.push q = q.extend l := by
      intro l
      induction l with
      | nil => intro q; simp [DerivationPath.extend]
      | cons c l ih => intro q; rw [List.foldl_cons, ih]; simp [DerivationPath.extend, DerivationPath.push]
    rw [this]
    cases p; rfl

/-- **C122** Prefixes: the version taken from a prefix is the one it was made from, and makes it again; `as_ref` is the text. -/
theorem C122_prefix_conversions (H : Hashes) (v : BitVec 32) (p : Prefix) (h : Prefix.tryFromVersion H v = .ok p) :
    p.intoVersion = v ∧ Prefix.tryFromVersion H p.intoVersion = .ok p ∧ p.asRef = p.asStr ∧
    ∃ s, Base58Check (sha256 H) s (be4 p.intoVersion.toNat ++ List.replicate 74 0) ∧ p.asRef = .ok (s.take 4) := by
  obtain ⟨s, hs, hok, herr⟩ := (C46_prefixes H).2.2.2.1 v
  by_cases hl : ∀ c ∈ s.take 4, Letter c
  · obtain ⟨q, hq, hv, hstr, -⟩ := hok hl
    rw [hq] at h
    obtain rfl : q = p := by injection h
    have e : q.intoVersion = v := hv
    rw [e]
    exact ⟨rfl, hq, rfl, s, hs, hstr⟩
  · rw [herr hl] at h
    cases h

/-- **C122** Mnemonics: the string made from a mnemonic, and the one `as_ref` lends, make it again. -/
theorem C122_mnemonic_conversions (H : Hashes) (m : Mnemonic) (hm : Constructible H m) :
    m.intoString = m.asRef ∧ Mnemonic.fromPhrase H m.intoString m.lang = .ok m ∧ Mnemonic.fromPhrase H m.asRef m.lang = .ok m := by
  have h := C69_text_forms H m hm
  exact ⟨rfl, h.2.2.2.2.1, h.2.2.2.2.1⟩

/-! ### Cases -/

/-- The largest `u32` is the last hardened number. -/
example : (ChildNumber.fromU32 0xffffffff#32).display = "2147483647'".toList := by
  rw [C122_child_number_conversions.2.2.2.2]; decide +kernel

/-- A path with a hardened number. -/
example : DerivationPath.default.extend (DerivationPath.mk [.fromU32 0x8000002c#32, .fromU32 7#32]).intoIter =
    ⟨[⟨0x8000002c#32⟩, ⟨7#32⟩]⟩ := (C122_path_conversions _).2.2.1

/-- The predefined prefixes meet the hypothesis. -/
example (H : Hashes) : Prefix.tryFromVersion H Prefix.ZPUB.intoVersion = .ok .ZPUB :=
  (C122_prefix_conversions H _ _ ((C46_prefixes H).2.2.1 .ZPUB (by decide)).1).2.1

/-- A Chinese mnemonic of 24 words, there and back. -/
example (H : Hashes) : ∃ m, m.lang = .chineseSimplified ∧ m.entropy = List.replicate 32 7 ∧
    Mnemonic.fromPhrase H m.intoString .chineseSimplified = .ok m := by
  obtain ⟨m, h, he, hl, _⟩ := phrase_of_entropy H .chineseSimplified (List.replicate 32 7) (by decide)
  refine ⟨m, hl, he, ?_⟩
  rw [← hl]
  exact (C122_mnemonic_conversions H m (.fromEntropy _ _ m (by decide) h)).2.1

end Kms.Props
