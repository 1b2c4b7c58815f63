import Verif.Model.Keys
/-
`XPrv::new` and `XPrv::new_from_path` over a caller's own type of seeds: they take any `S: AsRef<[u8]>`, and ask it twice.
-/
namespace Kms.Bip32

/-- An implementation of `AsRef<[u8]>` with state of its own (a cell, a lock, a device); it may panic.
The argument of src/bip32/extended_key/extended_private_key.rs:53-56, 63-66. -/
structure SeedType (σ : Type) where
  asRef : σ → Res Empty Bytes × σ

namespace XPrv
variable {σ : Type}

/-- src/bip32/extended_key/extended_private_key.rs:63-85 `new`: the outcome, the state of the seed afterwards and what its
`as_ref` answered.  The first answer is measured, the second is hashed. -/
def newFrom (S : SeedType σ) (H : Hashes) (seed : σ) : Res Error XPrv × σ × List (Res Empty Bytes) :=
  match S.asRef seed with
  | (.panic, seed) => (.panic, seed, [.panic])
  | (.ok first, seed) =>
    if ![16, 32, 64, 128].contains first.length then (.err .seedLength, seed, [.ok first])
    else match S.asRef seed with
      | (.panic, seed) => (.panic, seed, [.ok first, .panic])
      | (.ok second, seed) =>
        ((do
          let result := (H.hmacSha512 BIP39_DOMAIN_SEPARATOR second).1
          let secretKey ← tryIntoArr 32 Error.decode (result.take KEY_SIZE)
          let privateKey ← PrivateKey.fromBytes secretKey
          let chainCode ← tryIntoArr 32 Error.decode (result.drop KEY_SIZE)
          .ok ⟨privateKey, ⟨0, zeroArr 4, ChildNumber.default, chainCode⟩⟩), seed, [.ok first, .ok second])

/-- src/bip32/extended_key/extended_private_key.rs:53-60 `new_from_path`: the seed is moved into `new`, whose result is
folded. -/
def newFromPathFrom (S : SeedType σ) (H : Hashes) (seed : σ) (path : DerivationPath) :
    Res Error XPrv × σ × List (Res Empty Bytes) :=
  let x := newFrom S H seed
  (path.iter.foldl (fun maybeKey childNum => maybeKey >>= fun key => key.deriveChild H childNum) x.1, x.2)

end XPrv
end Kms.Bip32
