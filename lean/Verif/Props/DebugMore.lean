import Verif.Props.KeyText
import Verif.Props.Ecdsa
/-
C78.
-/
namespace Kms.Props
open Kms.Bip32 Kms.Bip39 Kms.Spec Kms.Spec.Bip32

/-- C78. `{:?}` of a prefix shows its four characters and its version as `0x` and eight lowercase hex digits; of a path, the
32-bit numbers in order, hardened bit included. -/
theorem C78_debug_prefix_path :
    (∀ (p : Prefix) s, p.asStr = .ok s → ∃ h b, h.length = 8 ∧ (∀ c ∈ h, c ∈ "0123456789abcdef".toList) ∧
      unhex h = some b ∧ bytesVal b = p.version.toNat ∧
      p.debug false = .ok ("Prefix { chars: \"".toList ++ s ++ "\", version: 0x".toList ++ h ++ " }".toList)) ∧
    (∀ path : DerivationPath, path.debug false = "DerivationPath { path: [".toList ++
      List.intercalate ", ".toList (path.path.map (fun c => "ChildNumber(".toList ++ Nat.toDigits 10 c.n.toNat ++ [')'])) ++
      "] }".toList) := by
  constructor
  · intro p s hs
    have h := (C22_hex_formatting false).1 ⟨(u32ToBE p.version).1⟩
    refine ⟨hexBytes false (u32ToBE p.version).1, (u32ToBE p.version).1, ?_, h.2.2.1, h.1, ?_, ?_⟩
    · have := h.2.1
      simp only [(u32ToBE p.version).2] at this
      exact this
    · rw [bytesVal_eq]
      unfold u32ToBE
      rw [beNat_natBE]
      exact Nat.mod_eq_of_lt p.version.isLt
    · have e1 : "Prefix { chars: \"".toList = "Prefix".toList ++ " { ".toList ++ "chars".toList ++ ": ".toList ++ ['"'] := by
        decide +kernel
      have e2 : "\", version: 0x".toList = ['"'] ++ ", ".toList ++ "version".toList ++ ": ".toList ++ ['0', 'x'] := by
        decide +kernel
      unfold Prefix.debug
      rw [hs]
      simp only [Res.ok_bind]
      unfold debugStruct debugStr debugVersion
      rw [e1, e2]
      simp only [Bool.false_eq_true, if_false, List.map_cons, List.map_nil, join, List.foldl_cons, List.foldl_nil,
        List.append_assoc]
  · intro path
    have e1 : "DerivationPath { path: [".toList = "DerivationPath".toList ++ " { ".toList ++ "path".toList ++ ": ".toList ++ ['['] := by
      decide +kernel
    have e2 : "] }".toList = [']'] ++ " }".toList := by decide +kernel
    have e3 : "ChildNumber(".toList = "ChildNumber".toList ++ ['('] := by decide +kernel
    unfold DerivationPath.debug debugStruct debugList
    rw [e1, e2, e3]
    simp only [Bool.false_eq_true, if_false, List.map_cons, List.map_nil, join_eq_intercalate, ChildNumber.debug, debugTuple1,
      decimal, List.append_assoc]
    simp [List.intercalate]

example : Prefix.XPRV.debug false = .ok "Prefix { chars: \"xprv\", version: 0x0488ade4 }".toList := by decide +kernel

end Kms.Props
