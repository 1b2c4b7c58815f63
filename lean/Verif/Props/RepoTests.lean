import Verif.Proofs.Language
import Verif.Model.Keys
import Verif.Model.Mnemonic
import Verif.Model.RealHashes
import Verif.Model.ErrorText
/-
The unit tests of /repo, repeated on the model and accepted by the kernel. No theorem rests on this file: it is
evidence that the definitions of the model are those of the code. Left out are the tests that need 2048 rounds of
PBKDF2 (the seeds of src/bip39/mod.rs and src/bip39/seed.rs), the tests of languages that are not compiled in, and
those that only print. Of the 24 phrases of src/bip39/mod.rs nine are kept, and of the six paths of src/bip32/mod.rs the
longest; three more are in Vectors.lean. To save build time the rest are not repeated here. `back_to_back` and
`mnemonic_format` of src/bip39/mnemonic.rs use a random phrase: they are instances of C01, C02 and C18.
-/
namespace Kms.Props.RepoTests

open Bip39 Bip32

/-- src/bip39/mod.rs `test_vectors`, entropy and phrase: parsing the phrase gives the entropy, and keeps the phrase. -/
def parses (phrase entropy : String) : Prop :=
  (Mnemonic.fromPhrase Real.hashes phrase.toList .english).map (fun m => (hexBytes false m.entropy, m.phrase)) =
    .ok (entropy.toList, phrase.toList)

example : parses "abandon abandon abandon abandon abandon abandon abandon abandon abandon abandon abandon about"
    "00000000000000000000000000000000" := by
  unfold parses Mnemonic.fromPhrase Mnemonic.phraseToEntropy Language.wordmap; rw [wordlist_english]; decide +kernel

example : parses "legal winner thank year wave sausage worth useful legal winner thank yellow"
    "7f7f7f7f7f7f7f7f7f7f7f7f7f7f7f7f" := by
  unfold parses Mnemonic.fromPhrase Mnemonic.phraseToEntropy Language.wordmap; rw [wordlist_english]; decide +kernel

example : parses "letter advice cage absurd amount doctor acoustic avoid letter advice cage above"
    "80808080808080808080808080808080" := by
  unfold parses Mnemonic.fromPhrase Mnemonic.phraseToEntropy Language.wordmap; rw [wordlist_english]; decide +kernel

example : parses "zoo zoo zoo zoo zoo zoo zoo zoo zoo zoo zoo wrong"
    "ffffffffffffffffffffffffffffffff" := by
  unfold parses Mnemonic.fromPhrase Mnemonic.phraseToEntropy Language.wordmap; rw [wordlist_english]; decide +kernel

example : parses "zoo zoo zoo zoo zoo zoo zoo zoo zoo zoo zoo zoo zoo zoo zoo zoo zoo when"
    "ffffffffffffffffffffffffffffffffffffffffffffffff" := by
  unfold parses Mnemonic.fromPhrase Mnemonic.phraseToEntropy Language.wordmap; rw [wordlist_english]; decide +kernel

example : parses "ozone drill grab fiber curtain grace pudding thank cruise elder eight picnic"
    "9e885d952ad362caeb4efe34a8e91bd2" := by
  unfold parses Mnemonic.fromPhrase Mnemonic.phraseToEntropy Language.wordmap; rw [wordlist_english]; decide +kernel

example : parses "scheme spot photo card baby mountain device kick cradle pact join borrow"
    "c0ba5a8e914111210f2bd131f3d5e08d" := by
  unfold parses Mnemonic.fromPhrase Mnemonic.phraseToEntropy Language.wordmap; rw [wordlist_english]; decide +kernel

example : parses "cat swing flag economy stadium alone churn speed unique patch report train"
    "23db8160a31d3e0dca3688ed941adbf3" := by
  unfold parses Mnemonic.fromPhrase Mnemonic.phraseToEntropy Language.wordmap; rw [wordlist_english]; decide +kernel

example : parses "vessel ladder alter error federal sibling chat ability sun glass valve picture"
    "f30f8c1da665478f49b001d94c5fc452" := by
  unfold parses Mnemonic.fromPhrase Mnemonic.phraseToEntropy Language.wordmap; rw [wordlist_english]; decide +kernel

/-- src/bip39/mnemonic.rs `mnemonic_from_entropy` -/
def crop : Bytes := [0x33, 0xE4, 0x6B, 0xB1, 0x3A, 0x74, 0x6E, 0xA4, 0x1C, 0xDD, 0xE4, 0x5C, 0x90, 0x84, 0x6A, 0x79]

example : (Mnemonic.fromEntropy Real.hashes crop .english).map (fun m => m.phrase) =
    .ok "crop cash unable insane eight faith inflict route frame loud box vibrant".toList := by
  unfold Mnemonic.fromEntropy Mnemonic.fromEntropyUnchecked; rw [wordlist_english]; decide +kernel

/-- src/bip39/mnemonic.rs `mnemonic_from_phrase` -/
example : (Mnemonic.fromPhrase Real.hashes
      "crop cash unable insane eight faith inflict route frame loud box vibrant".toList .english).map (fun m => m.entropy) =
    .ok crop := by
  unfold Mnemonic.fromPhrase Mnemonic.phraseToEntropy Language.wordmap; rw [wordlist_english]; decide +kernel

/-- src/bip39/mnemonic.rs `mnemonic_hex_format` -/
example : (Mnemonic.fromEntropy Real.hashes (0x03 :: crop.tail) .english).map (fun m =>
      (m.fmtHex false false, m.fmtHex true false, m.fmtHex false true, m.fmtHex true true)) =
    .ok ("03e46bb13a746ea41cdde45c90846a79".toList, "03E46BB13A746EA41CDDE45C90846A79".toList,
      "0x03e46bb13a746ea41cdde45c90846a79".toList, "0x03E46BB13A746EA41CDDE45C90846A79".toList) := by
  unfold Mnemonic.fromEntropy Mnemonic.fromEntropyUnchecked; rw [wordlist_english]; decide +kernel

/-- src/bip39/language.rs `words_by_prefix`, with both versions of the binary search of the standard library. -/
example : ∀ s ∈ [Language.binarySearch, Language.binarySearch'],
    Language.getWordsByPrefix s (Language.wordlist .english) "woo".toList = .ok ["wood".toList, "wool".toList] ∧
    (Language.getWordsByPrefix s (Language.wordlist .english) []).map List.length = .ok 2048 ∧
    Language.getWordsByPrefix s (Language.wordlist .english) "woof".toList = .ok [] := by
  rw [wordlist_english]; decide +kernel

/-- src/bip39/language.rs `from_language_code_en` and `from_invalid_language_code`. The test `from_language_code_cn_hans`
is never compiled, since there is no feature of that name, and it would fail: the code knows "zh-cn", not "zh-hans". -/
example : Language.fromLanguageCode "En".toList = some .english ∧
    Language.fromLanguageCode "Zh-Hans".toList = none ∧
    Language.fromLanguageCode "Zh-CN".toList = some .chineseSimplified ∧
    Language.fromLanguageCode "not a real language".toList = none := by decide +kernel

/-- src/bip39/language.rs `test_ffrom_phrase` -/
example : Language.fromPhrase "heavy face learn track claw jaguar pigeon uncle seven enough glow where".toList =
    some .english := by
  unfold Language.fromPhrase Language.wordmap; rw [wordlist_english]; decide +kernel

/-- src/bip39/mnemonic_type.rs `word_count`, `entropy_bits`, `checksum_bits` -/
example : [MnemonicType.words12, .words15, .words18, .words21, .words24].map
      (fun t => (t.wordCount, t.entropyBits, t.checksumBits)) =
    [(12, 128, 4), (15, 160, 5), (18, 192, 6), (21, 224, 7), (24, 256, 8)] := by decide +kernel

/-- src/bip39/error.rs `prints_correctly` -/
example : ErrorKind.display .invalidChecksum = "invalid checksum".toList ∧
    ErrorKind.display (.invalidKeysize 42) = "invalid keysize: 42".toList ∧
    ErrorKind.display (.invalidEntropyLength 42 .words12) =
      "invalid entropy length 42bits for mnemonic type Words12".toList := by decide +kernel

/-- src/bip32/child_number.rs `parse_non_hardened`, `parse_hardened`, `parse_rejects_invalid`, `index_overflow` -/
example : ChildNumber.fromStr "42".toList = ChildNumber.new 42 false ∧
    (ChildNumber.fromStr "42".toList).map (fun n => (n.index, n.isHardened)) = .ok (42, false) ∧
    ChildNumber.fromStr "42'".toList = ChildNumber.new 42 true ∧
    (ChildNumber.fromStr "42'".toList).map (fun n => (n.index, n.isHardened)) = .ok (42, true) ∧
    ChildNumber.fromStr "42!".toList = .err .childNumber ∧
    ChildNumber.new ChildNumber.HARDENED_FLAG false = .err .childNumber ∧
    ChildNumber.new ChildNumber.HARDENED_FLAG true = .err .childNumber := by decide +kernel

/-- src/bip32/derivation_path.rs `round_trip` -/
example : ∀ s ∈ ["m", "m/0", "m/0/2147483647'", "m/0/2147483647'/1", "m/0/2147483647'/1/2147483646'",
      "m/0/2147483647'/1/2147483646'/2"],
    (DerivationPath.fromStr s.toList).map DerivationPath.display = .ok s.toList := by decide +kernel

/-- src/bip32/derivation_path.rs `parent` -/
example : (DerivationPath.fromStr "m/0/2147483647'".toList).map (fun p =>
      (p.parent.map DerivationPath.display, (p.parent.bind DerivationPath.parent).map DerivationPath.display,
        (p.parent.bind DerivationPath.parent).bind DerivationPath.parent)) =
    .ok (some "m/0".toList, some "m".toList, none) := by decide +kernel

/-- src/bip32/prefix.rs `constants` -/
example : ∀ x ∈ [(Prefix.TPRV, 0x04358394#32, "tprv"), (.TPUB, 0x043587CF#32, "tpub"), (.XPRV, 0x0488ADE4#32, "xprv"),
      (.XPUB, 0x0488B21E#32, "xpub"), (.YPRV, 0x049d7878#32, "yprv"), (.YPUB, 0x049d7cb2#32, "ypub"),
      (.ZPRV, 0x04b2430c#32, "zprv"), (.ZPUB, 0x04b24746#32, "zpub")],
    Prefix.tryFromVersion Real.hashes x.2.1 = .ok x.1 ∧ x.1.asStr = .ok x.2.2.toList := by decide +kernel

/-- What src/bip32/extended_key/mod.rs asserts of a parsed text: the prefix, the depth, the fingerprint of the parent, the
number, the chain code and the key in hex, and that printing gives the text back. -/
def reads (text pfx chain key : String) : Prop :=
  (ExtendedKey.fromStr Real.hashes text.toList >>= fun k => k.pfx.asStr) = .ok pfx.toList ∧
  (ExtendedKey.fromStr Real.hashes text.toList).map (fun k =>
    (k.attrs.depth, k.attrs.parentFingerprint.1, k.attrs.childNumber.n)) = .ok (0, [0, 0, 0, 0], 0) ∧
  (ExtendedKey.fromStr Real.hashes text.toList).map (fun k =>
    (hexBytes true k.attrs.chainCode.1, hexBytes true k.keyBytes.1)) = .ok (chain.toList, key.toList) ∧
  (ExtendedKey.fromStr Real.hashes text.toList >>= fun k => k.toString Real.hashes) = .ok text.toList

/-- src/bip32/extended_key/mod.rs `bip32_test_vector_1_xprv` -/
example : reads
    "xprv9s21ZrQH143K3QTDL4LXw2F7HEK3wJUD2nW2nRk4stbPy6cq3jPPqjiChkVvvNKmPGJxWUtg6LnF5kejMRNNU3TGtRBeJgk33yuGBxrMPHi"
    "xprv" "873DFF81C02F525623FD1FE5167EAC3A55A049DE3D314BB42EE227FFED37D508"
    "00E8F32E723DECF4051AEFAC8E2C93C9C5B214313817CDB01A1494B917C8436B35" := by unfold reads; decide +kernel

/-- src/bip32/extended_key/mod.rs `bip32_test_vector_1_xpub` -/
example : reads
    "xpub661MyMwAqRbcFtXgS5sYJABqqG9YLmC4Q1Rdap9gSE8NqtwybGhePY2gZ29ESFjqJoCu1Rupje8YtGqsefD265TMg7usUDFdp6W1EGMcet8"
    "xpub" "873DFF81C02F525623FD1FE5167EAC3A55A049DE3D314BB42EE227FFED37D508"
    "0339A36013301597DAEF41FBE593A02CC513D0B55527EC2DF1050E2E8FF49C85C2" := by unfold reads; decide +kernel

/-- src/bip32/extended_key/mod.rs `test_master_xprv`: both texts are accepted. -/
example : ∀ s ∈ [
      "xprv9s21ZrQH143K3BMzbzRA1EtW4bTSDzvzPWeyUjjw6DdBGwM3GDNgd7wyAmy8R6KayQHRuTVQG4yvACbv4HLsyc9BPEGzu8GtYFTZTdncGnJ",
      "xprv9s21ZrQH143K4UgTbVuwLxTrB8u488uJxogG9CA7eAEL7hmcPtyG7zT8BtpmvibJQ8q1nxnXRUpQAo1BVa9tbvXery13KY1dSsC5A155c5k"],
    (ExtendedKey.fromStr Real.hashes s.toList).map (fun k => k.attrs.depth) = .ok 0 := by decide +kernel

/-- src/bip32/mod.rs `test_vectors` -/
def derives (seed : Bytes) (path xprv xpub : String) : Prop :=
  (DerivationPath.fromStr path.toList >>= fun p => XPrv.newFromPath Real.hashes seed p >>= fun k =>
    k.toString Real.hashes .XPRV >>= fun s => k.publicKey.toString Real.hashes .XPUB >>= fun t => pure (s, t)) =
    .ok (xprv.toList, xpub.toList)

example : derives [0, 1, 2, 3, 4, 5, 6, 7, 8, 9, 10, 11, 12, 13, 14, 15] "m/0'/1/2'/2/1000000000"
    "xprvA41z7zogVVwxVSgdKUHDy1SKmdb533PjDz7J6N6mV6uS3ze1ai8FHa8kmHScGpWmj4WggLyQjgPie1rFSruoUihUZREPSL39UNdE3BBDu76"
    "xpub6H1LXWLaKsWFhvm6RVpEL9P4KfRZSW7abD2ttkWP3SSQvnyA8FSVqNTEcYFgJS2UaFcxupHiYkro49S8yGasTvXEYBVPamhGW6cFJodrTHy" := by
  unfold derives; decide +kernel

/-- The seed of src/bip32/public_key.rs and src/bip32/private_key.rs -/
def seed : Bytes := (List.range 64).map (fun i => UInt8.ofNat (255 - 3 * i))

/-- src/bip32/private_key.rs `secp256k1_derivation` and src/bip32/public_key.rs `secp256k1_xprv_derivation` -/
example : derives seed "m/0/2147483647'/1/2147483646'/2"
    "xprvA2nrNbFZABcdryreWet9Ea4LvTJcGsqrMzxHx98MMrotbir7yrKCEXw7nadnHM8Dq38EGfSh6dqA9QWTyefMLEcBYJUuekgW4BYPJcr9E7j"
    "xpub6FnCn6nSzZAw5Tw7cgR9bi15UV96gLZhjDstkXXxvCLsUXBGXPdSnLFbdpq8p9HmGsApME5hQTZ3emM2rnY5agb9rXpVGyy3bdW6EEgAtqt" := by
  unfold derives; decide +kernel

/-- src/bip32/public_key.rs `secp256k1_ffi_xpub_derivation` -/
example : (DerivationPath.fromStr "m/0/2147483647'/1/2147483646'".toList >>= fun p =>
    XPrv.newFromPath Real.hashes seed p >>= fun k => k.publicKey.deriveChild Real.hashes ⟨2⟩ >>= fun q =>
      q.toString Real.hashes .XPUB) =
    .ok "xpub6FnCn6nSzZAw5Tw7cgR9bi15UV96gLZhjDstkXXxvCLsUXBGXPdSnLFbdpq8p9HmGsApME5hQTZ3emM2rnY5agb9rXpVGyy3bdW6EEgAtqt".toList := by
  decide +kernel

end Kms.Props.RepoTests
