import Verif.Data.ChineseSimplified
import Verif.Data.ChineseTraditional
import Verif.Data.CombiningClasses
import Verif.Data.Decompositions
import Verif.Data.English
import Verif.Data.French
import Verif.Data.Gb18030
import Verif.Data.Italian
import Verif.Data.Japanese
import Verif.Data.Korean
import Verif.Data.Spanish
import Verif.Data.Tables
import Verif.Data.Words
import Verif.Model.AllLanguages
import Verif.Model.Api
import Verif.Model.Base58
import Verif.Model.Bits
import Verif.Model.ChildNumber
import Verif.Model.Conversions
import Verif.Model.Cost
import Verif.Model.CostNfkd
import Verif.Model.CostSearch
import Verif.Model.Crypto
import Verif.Model.Debug
import Verif.Model.DebugErrors
import Verif.Model.DebugFormat
import Verif.Model.Ecdsa
import Verif.Model.Equality
import Verif.Model.ErrorText
import Verif.Model.ExtendPath
import Verif.Model.ExtendedKey
import Verif.Model.Format
import Verif.Model.GenericKeys
import Verif.Model.GenericOrder
import Verif.Model.Heap
import Verif.Model.KeyMem
import Verif.Model.Keys
import Verif.Model.Language
import Verif.Model.Lazy
import Verif.Model.Leak
import Verif.Model.LeakMnemonic
import Verif.Model.LeakText
import Verif.Model.Mnemonic
import Verif.Model.MnemonicType
import Verif.Model.Nfkd
import Verif.Model.Order
import Verif.Model.Prelude
import Verif.Model.Profile
import Verif.Model.ProfileBase58
import Verif.Model.RealHashes
import Verif.Model.Secp256k1
import Verif.Model.SeedType
import Verif.Model.StatefulKeys
import Verif.Model.Text
import Verif.Model.Threads
import Verif.Model.Wipe
import Verif.Proofs.AllLanguages
import Verif.Proofs.AllWords
import Verif.Proofs.AllWordsDistinct
import Verif.Proofs.AllWordsOverlap
import Verif.Proofs.Base58
import Verif.Proofs.Bits
import Verif.Proofs.Chance
import Verif.Proofs.ChildNumber
import Verif.Proofs.Cost
import Verif.Proofs.CostNfkd
import Verif.Proofs.CostSearch
import Verif.Proofs.Ecdsa
import Verif.Proofs.ExtendedKey
import Verif.Proofs.Heap
import Verif.Proofs.Keys
import Verif.Proofs.Language
import Verif.Proofs.Lazy
import Verif.Proofs.Mnemonic
import Verif.Proofs.Nfkd
import Verif.Proofs.NfkdSpec
import Verif.Proofs.NfkdTables
import Verif.Proofs.Prefix
import Verif.Proofs.Primes
import Verif.Proofs.Profile
import Verif.Proofs.ProfileBase58
import Verif.Proofs.Search
import Verif.Proofs.Secp256k1
import Verif.Proofs.SecpCount
import Verif.Proofs.SecpKeys
import Verif.Proofs.SecpOrder
import Verif.Proofs.Seed
import Verif.Proofs.Spells
import Verif.Proofs.Text
import Verif.Proofs.Threads
import Verif.Proofs.ThreadsBuilt
import Verif.Proofs.Wipe
import Verif.Props.AllLanguages
import Verif.Props.Api
import Verif.Props.ApiErrors
import Verif.Props.Built
import Verif.Props.Chance
import Verif.Props.ChanceKeys
import Verif.Props.ChanceSign
import Verif.Props.ChanceSignMany
import Verif.Props.ChanceText
import Verif.Props.ChineseSearch
import Verif.Props.Collisions
import Verif.Props.Conversions
import Verif.Props.Cost
import Verif.Props.CostNfkd
import Verif.Props.CostSearch
import Verif.Props.DebugErrors
import Verif.Props.DebugFormat
import Verif.Props.DebugMore
import Verif.Props.Derivation
import Verif.Props.DerivationMore
import Verif.Props.Ecdsa
import Verif.Props.ExtendPath
import Verif.Props.ExtendedKey
import Verif.Props.Format
import Verif.Props.GenericKeys
import Verif.Props.GenericOrder
import Verif.Props.Heap
import Verif.Props.InvalidKeys
import Verif.Props.KeyMem
import Verif.Props.KeyText
import Verif.Props.KeysMore
import Verif.Props.KeysUniform
import Verif.Props.Language
import Verif.Props.Lazy
import Verif.Props.Leak
import Verif.Props.LeakMnemonic
import Verif.Props.LeakText
import Verif.Props.LeakTextShape
import Verif.Props.Malleability
import Verif.Props.Metadata
import Verif.Props.Nfkd
import Verif.Props.Nonces
import Verif.Props.Order
import Verif.Props.OtherSigners
import Verif.Props.Outcomes
import Verif.Props.Path
import Verif.Props.PathJoin
import Verif.Props.PathTexts
import Verif.Props.Phrase
import Verif.Props.PhraseCount
import Verif.Props.PhraseMore
import Verif.Props.PrefixExact
import Verif.Props.Profile
import Verif.Props.ProfileWrap
import Verif.Props.Recovery
import Verif.Props.RelatedKeys
import Verif.Props.Repeats
import Verif.Props.RepoTests
import Verif.Props.Seed
import Verif.Props.SeedCollisions
import Verif.Props.SeedType
import Verif.Props.StatefulKeys
import Verif.Props.StatefulPaths
import Verif.Props.TextKinds
import Verif.Props.Threads
import Verif.Props.Tweaks
import Verif.Props.TwoLanguages
import Verif.Props.Unwind
import Verif.Props.Vectors
import Verif.Props.Wallet
import Verif.Props.Wipe
import Verif.Spec.AllLanguages
import Verif.Spec.Api
import Verif.Spec.ApiErrors
import Verif.Spec.Base58
import Verif.Spec.Bip32
import Verif.Spec.Bip32Text
import Verif.Spec.Bip39
import Verif.Spec.Bits
import Verif.Spec.Built
import Verif.Spec.Chance
import Verif.Spec.ChanceFamily
import Verif.Spec.ChanceKeys
import Verif.Spec.Collisions
import Verif.Spec.Ecdsa
import Verif.Spec.ExtendedKey
import Verif.Spec.Format
import Verif.Spec.Heap
import Verif.Spec.Hex
import Verif.Spec.Lazy
import Verif.Spec.Leak
import Verif.Spec.LeakMnemonic
import Verif.Spec.LeakText
import Verif.Spec.Mnemonic
import Verif.Spec.Nfkd
import Verif.Spec.Order
import Verif.Spec.Path
import Verif.Spec.Secp256k1
import Verif.Spec.TextKinds
import Verif.Spec.Threads
import Verif.Spec.Tweak
import Verif.Spec.Unicode
