import Verif.Props.DerivationMore
import Verif.Props.PhraseMore
/-
Property C53: recovery of a wallet from its phrase.
-/
namespace Kms.Props
open Kms.Bip32 Kms.Bip39 Kms.Spec

/-- C53. Let `m` be any mnemonic the library can produce, `ws` its words, and `text` the same words typed with any
spacing and in any NFKD-equivalent form; let `pw'` be NFKD-equivalent to `pw`.  The language is detected, `from_phrase`
accepts the text and gives the same mnemonic; the seed is the same, and so is the outcome of deriving the key at any
path. -/
theorem C53_wallet_recovery (H : Hashes) (m : Mnemonic) (hm : Constructible H m) (ws ws' : List Str) (text pw pw' : Str)
    (hws : Spells m.phrase ws) (htext : Spells text ws') (vs : List Str) (hn : List.Forall₂ IsNfkd ws vs)
    (hn' : List.Forall₂ IsNfkd ws' vs) (npw : Str) (hpw : IsNfkd pw npw) (hpw' : IsNfkd pw' npw) :
    Language.fromPhrase m.phrase = some m.lang ∧
    ∃ m', Mnemonic.fromPhrase H text m.lang = .ok m' ∧ m'.phrase = m.phrase ∧ m'.entropy = m.entropy ∧
      (Seed.new H m' pw').bytes = (Seed.new H m pw).bytes ∧
      ∀ path, XPrv.newFromPath H (Seed.new H m' pw').bytes path = XPrv.newFromPath H (Seed.new H m pw).bytes path := by
  refine ⟨(C14_language_detection H).1 m hm, m, ?_, rfl, rfl, ?_⟩
  · rw [(C09_nfkd_insensitive H m.lang).2.2.1 text m.phrase vs ⟨ws', htext, hn'⟩ ⟨ws, hws, hn⟩]
    obtain ⟨ws, idx, hp, hw, he⟩ := constructible_shape H m hm
    rw [hp, (words_validate H m.lang ws idx m.entropy hw he).2, ← hp]
  · have : Seed.new H m pw' = Seed.new H m pw := (C20_seed_is_pbkdf2 H).2.2 m pw' pw npw hpw' hpw
    rw [this]
    exact ⟨rfl, fun _ => rfl⟩

/-- The hypotheses of C53 are met: with the entropy of sixteen zero bytes, the phrase typed with leading and doubled
spaces. -/
example (H : Hashes) : ∃ (m : Mnemonic) (ws : List Str), Constructible H m ∧ Spells m.phrase ws ∧
    Spells (' ' :: m.phrase) ws := by
  obtain ⟨m, _, hm, _⟩ := C06_bip39_layout H (List.replicate 16 0) .english (by decide)
  refine ⟨m, splitWhitespace m.phrase, .fromEntropy _ .english m (by decide) hm, spells_iff.2 rfl, spells_iff.2 ?_⟩
  exact splitWhitespace_ws_cons (by decide) _

end Kms.Props
