import Verif.Props.PhraseMore
import Verif.Props.KeyText
import Verif.Props.Ecdsa
import Verif.Model.RealHashes
/-
Published test vectors, run on the model in the kernel with the real SHA-256, SHA-512 and RIPEMD-160: the concrete cases that
stand beside C01, C04, C08, C09, C10, C34, C38 to C43, C51, C57, C59 to C62.  No theorem depends on this file.
-/
namespace Kms.Props
open Spec Bip39 Bip32

/-- C08, C09: tabs, runs of blanks, an ideographic space, full-width letters and a newline. -/
example : Mnemonic.fromPhrase Real.hashes
    " legal\twinner  thank year　wave sausage worth useful ｌｅｇａｌ winner thank yellow\n".toList .english =
    .ok ⟨vecPhrase, .english, vecEntropy⟩ := by
  unfold Mnemonic.fromPhrase Mnemonic.phraseToEntropy Language.wordmap
  rw [wordlist_english]
  decide +kernel

/-- C04: the four outcomes. -/
example : Mnemonic.validate Real.hashes vecPhrase .english = .ok () ∧
    Mnemonic.validate Real.hashes "legal winner thank year wave sausage worth useful legal winner thank legal".toList .english
      = .err .invalidChecksum ∧
    Mnemonic.validate Real.hashes "legal winner".toList .english = .err (.invalidWordLength 2) ∧
    Mnemonic.validate Real.hashes "legal winer".toList .english = .err .invalidWord := by
  unfold Mnemonic.validate Mnemonic.phraseToEntropy Language.wordmap
  rw [wordlist_english]
  decide +kernel

/-- C01 in Chinese: the zero entropy. -/
example : Mnemonic.fromEntropy Real.hashes (List.replicate 16 0) .chineseSimplified =
    .ok ⟨"的 的 的 的 的 的 的 的 的 的 的 在".toList, .chineseSimplified, List.replicate 16 0⟩ := by
  unfold Mnemonic.fromEntropy Mnemonic.fromEntropyUnchecked
  rw [wordlist_chinese]
  decide +kernel

/-- The seed of test vector 1 of BIP-32 -/
def seed1 : Bytes := [0, 1, 2, 3, 4, 5, 6, 7, 8, 9, 10, 11, 12, 13, 14, 15]

/-- Chain m, private. -/
example : (XPrv.newFromPath Real.hashes seed1 ⟨[]⟩ >>= fun k => k.toString Real.hashes .XPRV) =
    .ok "xprv9s21ZrQH143K3QTDL4LXw2F7HEK3wJUD2nW2nRk4stbPy6cq3jPPqjiChkVvvNKmPGJxWUtg6LnF5kejMRNNU3TGtRBeJgk33yuGBxrMPHi".toList := by
  decide +kernel

/-- Chain m, public. -/
example : (XPrv.newFromPath Real.hashes seed1 ⟨[]⟩ >>= fun k => k.publicKey.toString Real.hashes .XPUB) =
    .ok "xpub661MyMwAqRbcFtXgS5sYJABqqG9YLmC4Q1Rdap9gSE8NqtwybGhePY2gZ29ESFjqJoCu1Rupje8YtGqsefD265TMg7usUDFdp6W1EGMcet8".toList := by
  decide +kernel

/-- Chain m/0', private. -/
example : (XPrv.newFromPath Real.hashes seed1 ⟨[⟨0x80000000⟩]⟩ >>= fun k => k.toString Real.hashes .XPRV) =
    .ok "xprv9uHRZZhk6KAJC1avXpDAp4MDc3sQKNxDiPvvkX8Br5ngLNv1TxvUxt4cV1rGL5hj6KCesnDYUhd7oWgT11eZG7XnxHrnYeSvkzY7d2bhkJ7".toList := by
  decide +kernel

/-- Chain m/0'/1, private: a hardened and a normal step. -/
example : (XPrv.newFromPath Real.hashes seed1 ⟨[⟨0x80000000⟩, ⟨1⟩]⟩ >>= fun k => k.toString Real.hashes .XPRV) =
    .ok "xprv9wTYmMFdV23N2TdNG573QoEsfRrWKQgWeibmLntzniatZvR9BmLnvSxqu53Kw1UmYPxLgboyZQaXwTCg8MSY3H2EU4pWcQDnRnrVA1xe8fs".toList := by
  decide +kernel

/-- The seed of test vector 2 of BIP-32 -/
def seed2 : Bytes := [
  255, 252, 249, 246, 243, 240, 237, 234, 231, 228, 225, 222, 219, 216, 213, 210, 207, 204, 201, 198, 195, 192,
  189, 186, 183, 180, 177, 174, 171, 168, 165, 162, 159, 156, 153, 150, 147, 144, 141, 138, 135, 132, 129, 126,
  123, 120, 117, 114, 111, 108, 105, 102, 99, 96, 93, 90, 87, 84, 81, 78, 75, 72, 69, 66]

/-- Chain m/0, public, derived from the public key of m. -/
example : (XPrv.newFromPath Real.hashes seed2 ⟨[]⟩ >>= fun k => k.publicKey.deriveChild Real.hashes ⟨0⟩ >>= fun p =>
      p.toString Real.hashes .XPUB) =
    .ok "xpub69H7F5d8KSRgmmdJg2KhpAK8SR3DjMwAdkxj3ZuxV27CprR9LgpeyGmXUbC6wb7ERfvrnKZjXoUmmDznezpbZb7ap6r1D3tgFxHmwMkQTPH".toList := by
  decide +kernel

/-- The digest of "Satoshi Nakamoto" -/
def satoshi : Bytes := (Real.hashes.sha256 ("Satoshi Nakamoto".toList.map (fun c => UInt8.ofNat c.toNat))).1

/-- The published RFC 6979 signature of that digest under the key 1, in release and debug builds. -/
example : ∀ debug, (ecdsaSign Real.hashes debug 1 exKey.privateKey satoshi).map (fun r => r.map (fun x => (x.1.1, x.2))) =
    some (.ok (natBE 32 0x934b1ea10a4b3c1757e2b0c017d0b6143ce3c9a7e6a4a49860d7a6ab210ee3d8 ++
      natBE 32 0x2442ce9d2b916064108014783e923ec36b49743e2ffa1c4496f01a512aafd9e5, 1)) := by
  decide +kernel

/-- RIPEMD-160 of the empty message, in hex (C56) -/
example : ripemd Real.hashes [] = "9c1185a5c5e9fc54612808977ee8f548b2258d31".toList := by decide +kernel

end Kms.Props
