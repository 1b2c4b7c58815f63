import Verif.Model.Mnemonic
import Verif.Model.ExtendedKey
/-
The `From`, `IntoIterator` and `AsRef` conversions of the public types that the other modules do without.
-/
namespace Kms

namespace Bip32

/-- src/bip32/child_number.rs:67-71 `From<u32> for ChildNumber`; every `u32`, hardened or not. -/
def ChildNumber.fromU32 (n : BitVec 32) : ChildNumber := ⟨n⟩

/-- src/bip32/child_number.rs:73-77 `From<ChildNumber> for u32` -/
def ChildNumber.intoU32 (c : ChildNumber) : BitVec 32 := c.n

/-- src/bip32/derivation_path.rs:53-57 `AsRef<[ChildNumber]>` -/
def DerivationPath.asRef (p : DerivationPath) : List ChildNumber := p.path

/-- src/bip32/derivation_path.rs:96-103 `into_iter`: the items of the iterator, in order. -/
def DerivationPath.intoIter (p : DerivationPath) : List ChildNumber := p.path

/-- src/bip32/prefix.rs:118-120 `version` -/
def Prefix.getVersion (p : Prefix) : BitVec 32 := p.version

/-- src/bip32/prefix.rs:169-179 `From<Prefix> for Version`, `From<&Prefix> for Version` -/
def Prefix.intoVersion (p : Prefix) : BitVec 32 := p.getVersion

/-- src/bip32/prefix.rs:148-152 `AsRef<str>` -/
def Prefix.asRef (p : Prefix) : Res Error Str := p.asStr

end Bip32

namespace Bip39

/-- src/bip39/mnemonic.rs:276-280 `AsRef<str>` -/
def Mnemonic.asRef (m : Mnemonic) : Str := m.phrase

/-- src/bip39/mnemonic.rs:322-326 `From<Mnemonic> for String` -/
def Mnemonic.intoString (m : Mnemonic) : Str := m.intoPhrase

end Bip39
end Kms
