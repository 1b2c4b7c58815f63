# Formal model of uduncloud/kms in Lean 4

## Scope

The whole library crate is modelled: `src/bip39/*` (util, mnemonic type, language,
word lists, mnemonic, seed), `src/bip32/*` (child number, derivation path, prefix,
extended keys, private/public keys), `src/lib.rs::ecdsa_sign` and `src/crypto.rs`.
Dependencies are modelled to the level the properties need (see Trusted base).

Rust `Result` and panics are one data type `Res` with constructors ok, err, panic.
`str` is a list of Unicode scalar values, `&[u8]` a list of `UInt8`, `[u8; N]`
a list with a length proof, machine integers are `BitVec`/bounded where wrap-around matters.

## Plan per property

- **C01 Entropy survives the phrase** — BitIter/BitWriter modelled on BitVec 64/32; refinement of both to bit lists; then round trip by chunking lemma.
- **C02 Accepted phrases are canonical encodings** — Same refinement, other direction; word map inverse of word list.
- **C03 Exact acceptance condition of from_phrase** — Independent bit-list spec `Spec.Bip39`; iff theorem.
- **C04 Error classification of phrase parsing** — Total functions into ok/err/panic; case analysis with precedence spelled out.
- **C05 Exact acceptance condition of from_entropy** — `usize` multiplication modelled modulo 2^64; theorem under len < 2^61.
- **C06 BIP39 bit layout of generated phrases** — Bit-list spec, per-index statement.
- **C07 Fresh mnemonics are valid and unbiased** — RNG output is an argument; injectivity from C01.
- **C08 Whitespace insensitivity** — Direct from the model of split_whitespace.
- **C09 NFKD insensitivity of phrases** — Concrete NFKD table model (Unicode 14.0), idempotence.
- **C10 validate versus from_phrase** — iff theorem plus a concrete counterexample to the naive claim.
- **C11 Word list is a bijection with 0..2047** — Word lists embedded as data; no-duplicates checked by kernel over the whole table and lifted.
- **C12 English prefix search is exact** — Sorted-list binary search proof.
- **C13 Chinese prefix search is exact** — Counterexample by kernel evaluation; _partial theorem: soundness, exactness off the list, and the exact set of list words each of the two standard-library searches finds (both searches run on all 2048 words at once in the kernel, splitting the set of keys at every probe; the splitting is proved to give each key's own result).
- **C14 Language detection** — Invariant of constructible mnemonics + disjointness of lists.
- **C15 Language codes** — Model of to_ascii_lowercase; iff theorem.
- **C16 Mnemonic type arithmetic** — Case analysis for all naturals.
- **C17 Phrase type detection** — split(' ') count lemma.
- **C18 Checksum strength** — Bijection with the free bits; cardinality theorem.
- **C19 Seeds have 64 bytes** — PBKDF2 defined over an arbitrary hash; length lemma.
- **C20 Password NFKD insensitivity and BIP39 salt** — NFKD append law for ASCII prefix.
- **C21 Chinese seeds follow BIP39** — Negation with witness; injectivity of the GB18030 table on list characters _partial.
- **C22 Hex formatting** — Hex encoder/decoder inverse.
- **C23 Child number construction** — BitVec 32.
- **C24 Child number bytes** — BitVec 32 to 4 bytes.
- **C25 Child number text round trip** — Decimal printer/parser inverse.
- **C26 Child number grammar** — Grammar predicate as independent spec; iff.
- **C27 Derivation path text round trip** — split/join inverse + C25.
- **C28 Derivation path grammar** — iff.
- **C29 Derivation path structure** — State machine over op lists refining a list.
- **C30 Path derivation composes** — Fold laws.
- **C31 Public derivation matches private derivation** — secp256k1 as Mathlib's point group over ZMod p; k ↦ k•G homomorphism; order of G proved n by kernel computation.
- **C32 No hardened children from public keys** — Direct, for all depths.
- **C33 Depth discipline** — Induction on path.
- **C34 Child key formula** — Spec formula in BIP32 notation.
- **C35 Derivation never panics** — Negation with witness; exact outcome theorem.
- **C36 Seed acceptance** — Exact outcome theorem.
- **C37 Keys stay in range** — Inductive reachability invariant.
- **C38 xprv text round trip** — Base58Check round trip + numeric interval argument for the textual prefix.
- **C39 xpub text round trip** — As C38 + C50.
- **C40 Extended key text is canonical** — Base58 decode-then-encode identity.
- **C41 Serialisation always succeeds and fits** — Numeric bounds 256^82 <= 58^112 etc. with leading zero handling.
- **C42 BIP32 byte layout** — Spec layout.
- **C43 Exact acceptance of extended key text** — iff.
- **C44 Private and public text do not mix** — From C43 and tag bytes.
- **C45 XPrv equality means same key** — Negation with witness; exact characterisation (attrs only) _partial.
- **C46 Prefix constants and versions** — Kernel computation for the eight constants; general theorem for try_from.
- **C47 Version determines the text prefix** — Negation with witness; theorem for constants.
- **C48 Debug output hides the private key** — Debug model as a function of the struct.
- **C49 Serialisation scratch buffers are wiped** — Scratch buffer returned by the model as an extra output.
- **C50 Compressed public keys** — Euler criterion and p ≡ 3 mod 4; -7 is not a cube.
- **C51 ECDSA signatures verify** — ECDSA over the same group.
- **C52 Derivation domain separation** — List append injectivity with fixed widths.
- **C53 Wallet recovery end to end** — Composition of C01, C08, C20.
- **C54 Watch-only wallet end to end** — Composition of C31, C39.
- **C55 Neutering preserves attributes** — Direct.
- **C56 ripemd helper** — Hex.
- **C57 Public child formula** — Agreement of the model with the BIP32 formula over Mathlib's group of curve points.
- **C58 One private key per public key** — Order of the generator and injectivity of compressed encoding.
- **C59 Exact acceptance of private key text** — iff between acceptance by XPrv::from_str and Base58Check payloads.
- **C60 Exact acceptance of public key text** — As C59, with the curve equation and square roots modulo p.
- **C61 RFC 6979 nonces** — Loop over HMAC-DRBG candidates as a well-founded search; agreement with an independent RFC 6979 specification.
- **C62 Signing in debug builds** — Same loop with the dependency's debug assertions as panics.
- **C63 NFKD is Unicode's normalisation form KD** — Bubble-sort reordering refined to a relation of adjacent exchanges (Spec.Nfkd); uniqueness from confluence.
- **C64 Four letters identify an English word** — Kernel check that the whole list truncated to four letters is strictly sorted, then C12.
- **C65 Non-hardened derivation can be unwound** — Induction over the path with an explicit scalar `publicTweak`.
- **C66 Child keys differ** — Tweaks are in 1..n-1 on success, so adding one moves the key.
- **C67 Order of attributes and prefixes** — Lexicographic order on concatenations of fixed-width fields.
- **C68 Number of valid phrases** — Bijection between entropies of a size and validated strings of the matching word count, then cardinality of byte strings.
- **C69 Text forms of a mnemonic agree** — Shape of obtainable mnemonics (indices into the word list) and kernel checks that each list is in its alphabet.
- **C70 Phrase sizes describe themselves** — Case analysis over the five sizes.
- **C71 Seed inputs separate wallets** — UTF-8 injective; GB18030 injective on Chinese phrases (C21); the two encodings differ in a non-ASCII byte; NFKD of an ASCII prefix splits off.
- **C72 Text separates extended keys** — Base58Check is injective on payloads and the layout has fixed-width fields; the first key byte is 0 against 2 or 3.
- **C73 Signing sees the message modulo the group order** — From agreement with RFC 6979 (the message enters only as bits2octets, reduced modulo n).
- **C74 A watch-only holder verifies derived signatures** — Composition of C31, C39 and C51.
- **C75 Untrusted input does not panic** — Collected from the acceptance theorems; case analysis for the parsers.
- **C76 Secrets are wiped on drop** — Buffers as lists of cells with a length (Model/Wipe.lean); induction over the wiping loops of the dependency.
- **C77 Error messages identify the error** — Distinct literal beginnings; decimal numerals are injective.
- **C78 Debug text of prefixes and paths** — Text of the derived Debug builders against literal strings; hex digits decoded by the C22 specification.
- **C79 Failures of public derivation** — Case analysis of the public step (as for C57), read as iffs for each failure.
- **C80 The first failing step decides** — Induction over the fold of the path.
- **C81 Reading then writing a key returns the text** — C40 and injectivity of the payload; the prefix only enters through its version.
- **C82 Derivation can be stopped and resumed** — Composition of C30, C38 and C39.
- **C83 What == means on public values** — Model of the derived PartialEq; C72, C24, C25, C27, C67.
- **C84 Word lists under concurrent first use** — Small-step model of the four `Lazy` statics and any number of threads; an invariant on cells, closures and stacks preserved by every step; progress because only a map waits for a list; a weight per frame that every step decreases.
- **C85 Results do not depend on the build** — A second model of the same functions (`Model/Profile.lean`) in which every machine operation takes the build profile: it panics or wraps on overflow. Proved equal to the first model from the invariants of the bit writer and bit iterator and a bound on the number of words in a phrase.
- **C86 Inputs too long for the machine's integers** — The same model beyond the bounds of C85: `bits.len()` is known modulo 2^usize, and the comparison of check sums reads only the first 11 m bits. The bit iterator reads the whole slice whatever `size_hint` says. The 390451585-word phrase and the slice of 2^29 + 16 bytes are instances.
- **C87 Key text does not depend on the build** — The same for the loops of bs58: digits below the base and a carry of at most the multiplier are preserved, so every intermediate value is below 2^15.
- **C88 Extended keys over any key type** — `Model/GenericKeys.lean` models the generic types over a record of the trait methods. Outcomes follow by cases on the depth and on the implementation's answer; the instance at libsecp256k1 is proved equal to `Model/Keys.lean`.
- **C89 Text of extended keys over any key type** — The argument of C59 and C60 with the implementation's `from_bytes` in place of libsecp256k1's.
- **C90 What watch-only derivation needs from a key type** — One direction is C31's induction over the path; the other chooses hash functions whose left half is the given tweak.
- **C91 Which child key each HMAC half gives** — Addition modulo n is a bijection; counting the numbers below 2^256 outside [1, n). Public keys follow because each is the public key of exactly one secret key.
- **C92 Text through any formatter and writer** — `Model/Format.lean` runs each `fmt` method against an arbitrary writer; `Spec/Format.lean` says what it means to write a text. Closure of that notion under sequencing and loops gives every case; the prefix property is by induction over the calls.
- **C93 Debug through any formatter and writer** — `Model/DebugFormat.lean` models the builders of core::fmt and their indenting writer; writing a text is closed under indentation, by induction over the calls.
- **C94 Mnemonics in all eight languages of the source** — `Model/AllLanguages.lean` is the source with all `cfg` arms. The kernel checks over each whole list that words are distinct, that letters carry at most one mark and that the normalisation tables leave them alone; a space that normalisation brings in is followed by a character that begins no word. The rest is the argument of C01 to C06. Agreement without features is by unfolding.
- **C95 Language codes and detection in builds with more languages** — Case analysis on the code; disjointness of the lists, checked over whole lists, for detection.
- **C96 Seeds in all eight languages** — Words are in NFKD form and a space separates normalisation, so the phrase is the NFKD form of the words; then as C20.
- **C97 Where prefix search is exact** — Sorted lists by the contract of `binary_search`; for each unsorted list a word that is missed.
- **C98 No secrets in memory given back by mnemonics and seeds** — `Model/Heap.lean` gives every `Vec` and `String` its buffer and every call the list of buffers it gives back. The words of both lists have at most 8 bytes, so the capacity that `join` asks for suffices. Induction over the steps.
- **C99 What validate, from_phrase and Seed::new leave in memory** — The same model: the buffers of the bit writer, of the growing phrase and of `Seed::new`, by induction over words and characters. Growth by doubling is an invariant between the capacity and the longest beginning given back.
- **C100 Fresh mnemonics are uniformly distributed** — Mathlib's probability mass functions (`Spec/Chance.lean`). C07 and C68 make `new` a bijection from the bytes to the accepted phrases; the probability of an event is then a count, by C18 and C68.
- **C101 How likely key derivation is to fail** — The outcome of each step is a condition on the two halves of the HMAC output (C35, C36, C79); `count_halves` counts the 64-byte strings that meet it. Along a path every step draws its hash functions anew (`walk`, `Spec/ChanceKeys.lean`), and the chances add up by induction over the path.
- **C102 How often a nonce cannot be used** — x = n is a coordinate of a point of the curve (checked in the kernel), so two multiples of G have it, because the group has prime order n (C66). The other bounds count the nonces whose point has one of a set of x coordinates, at most two for each, and use C51 and C62.
- **C103 Different places in the key tree have different keys** — Equal parts of two HMAC outputs come from equal inputs or from a collision of that part among the inputs hashed (`hmac_part`); then induction over the paths from their ends, with C34, C36 and C52. A seed has no length that the 37 bytes of a child have. The collision is one of two explicit finite lists, since a collision of some inputs exists for every hash function by counting; that the lists are all that matters is a theorem too (`C103_inputs_suffice`).
- **C104 Nonces are not used twice** — HMAC-SHA256 is injective unless two of the inputs hashed collide; induction over the attempts shows that K and V of RFC 6979 determine key, message and attempt. The inputs are explicit lists, which suffice (`C104_inputs_suffice`). The signature equations of C61 give the key in the field of order n.
- **C105 A signature belongs to one key and message** — r and the recovery id determine the point, hence the nonce up to the sign that the low s fixes; the signature equations of C61 then differ only in key and message.
- **C106 Damaged text is noticed** — The words fix entropy and checksum bits; `validate` accepts exactly if the first n/3 bits of the digest are those bits (C10, C43 for Base58Check), and the digests with given first bits are counted.
- **C107 Comparisons obey the contracts of Rust's comparison traits** — The derived comparisons field by field, generic in the key type's comparisons; a small specification lists Rust's contract; two lawful comparisons made one after the other are lawful, and keys with equal attributes compare as the keys do.
- **C108 Debug text of errors and extended public keys** — The builders of core::fmt with any format specification and writer, as for C93; indentation is injective, so the text gives back the fields.
- **C109 Text from outside is read in linear time** — A second version of the reading functions in a monad that counts loop iterations and bytes handled; it returns the same values (erasure), and the count is bounded with the size of the buffer: each character after the first that counts multiplies the number by 58, so at most 112 can follow.
- **C110 Which methods of a key implementation the library calls** — The generic keys once more, in a monad that carries the state of the implementation and records each call with its arguments and answer. The sequences of calls are read off by inversion of the monad's bind; the walk along a path by induction on the path; the record is shown to be what happened, and for implementations without state the results are those of C88 to C90.
- **C111 Different wallets share no round of PBKDF2** — HMAC determines its message, and its key up to zero bytes at the end, unless two of the inputs hashed collide; induction over the rounds; phrases have no zero bytes (English is ASCII, the GB18030 codes of the Chinese words are checked); then C71. The inputs are explicit lists, which suffice (`C111_inputs_suffice`).
- **C112 How often a seed is asked for its bytes** — `new` and `new_from_path` once more, over a seed type given by its answers from a state, with the answers recorded. Case analysis; a seed type with changing answers shows that the length is not enforced.
- **C113 Reading phrases and passphrases takes time n log n** — The decompositions are checked entry by entry for the factors (Hangul by arithmetic); reordering permutes. `from_phrase` and `Seed::new` are written with steps counted, as in C109, with the cost of a sort as a parameter; induction over the text with the number of waiting marks, and the sum over the words.
- **C114 A path keeps what an iterator gave it** — `extend` with the loop of `Vec::extend` over an iterator given by its answers from a state, the answers recorded; when the vector is full is a parameter. Induction over the number of calls.
- **C115 What operations on private keys leave in their arrays** — The operations with the byte arrays declared in src/bip32 listed as they are at the end of their scope; the lists are computed, and compared with BIP32's quantities.
- **C116 Calls from several threads act as if alone** — The threads of C84 for all eight languages, with the calls as trees of dereferences in the order of the source; a client chooses calls by answers. The invariant says that the code left to a thread has the result of the whole; progress and a decreasing measure as in C84.
- **C117 Comparing and deriving private keys shows nothing of the keys** — The comparison and derivation of private keys with a list of what is seen (branches, array elements, lengths hashed), down to the bit operations of crate subtle. The lists of two runs are computed and compared; induction over the arrays and the path.
- **C118 Word lists and maps are built on demand only** — The thread model of C116. What code has still to build when it runs alone is a function of the code; invariant over schedules: what is built is within what some thread was to build, and what a thread was to build is built or still ahead of it.
- **C119 What making and validating mnemonics shows** — The observer of C117 for `from_entropy`, `new` and `validate`: each loop emits its branches and accesses. The view of the bit iterator is computed from lengths alone; the reads of the word list are the 11-bit groups. For validation, two runs over pieces that look alike keep writers of equal shape.
- **C120 What writing and reading key text shows** — The observer of C117 for the loops of bs58: each loop emits its branches and accesses. The values are those of the model by induction; the reads of the two tables are filtered out of the view and are the digits of the text. For the last part the views are computed from the numbers of digits that the loops go through; these are the same for all continuations of a usual prefix because no power of 58 (of 256) lies among them, which is checked for each prefix and length.
- **C121 Searching words and detecting a language take few steps** — The loops of the two binary searches, of `take_while` and of `split_whitespace().next()` with their steps counted as for C109; induction with the size of the interval halving.
- **C122 Conversions lose nothing** — The `From`, `IntoIterator` and `AsRef` conversions modelled one by one; round trips from C23, C24, C46 and C69.
- **C123 Programs that use the whole interface** — One constructor per public function, its answer by the models of the other modules; histories of calls as an inductive relation on the objects held; invariants by induction over histories, panics case by case from C11, C35, C46, C62, C75, C79, C80, rebuilding from C38, C39, C69.
- **C124 The errors of each function, and no others** — A table (inductive relation) of function and error in the specification; one theorem that errors after any history are in the table, by cases on the call from C04, C05, C16, C17, C23, C26, C28, C35, C36, C41, C43, C46, C51, C59, C60, C79, C80; one that each entry occurs, with a program for each.
- **C125 How much of a lost phrase the checksum gives back** — Number of completions by induction on the number of lost words from C18; the mean is a sum of the probabilities of C106.
- **C126 Fresh phrases are not guessed and do not repeat** — Sum of the probabilities of C100 over the guesses; for repetition, C07 makes equal phrases the same event as equal bytes, then a union bound over pairs.
- **C127 How often keys and fingerprints repeat** — Equal children mean equal left halves of HMAC (C66, C36), which two uniform independent strings have with probability 2^-256 by counting; a union bound over pairs. For fingerprints, counting strings with the same first four bytes.
- **C128 Keys of different calls are uniform and independent** — By C34, C57 (through C31) and C36 each result is given by exactly one value of HMAC; independent uniform values then give the product of the probabilities.
- **C129 Phrases that can be read in two languages** — The kernel checks which words two lists have in common and that they have the same number (Chinese) or never the same one (English and French); C94 and C96 then say what is read and what the seed is made of.
- **C130 Which other signatures of a signed message verify** — The equation of the signature, k * s = m + r * d modulo n, is solved for s: a verifying s gives a point with the same x coordinate, so the nonce k or n - k, so s or n - s; recovery fixes the sign by the parity of y.
- **C131 Signatures carry over to related keys** — The derived point is Q + t G (C65), so the point checked for m' and Q + t G is the one checked for m' + r t and Q; C51 and C130 give the signatures.
- **C132 Which keys a signature verifies for** — Every point is a multiple of G, so verification is the existence of a recovery id that gives the key; for a given recovery id the equation k s = m + r d has one solution d, and -k s = m + r d' one solution d'.
- **C133 A text is one kind of thing only** — From the exact grammars (C26, C28, C43, C94, C95): only phrases have white space; key texts have over 110 characters and start with letters, child numbers start with a digit or +, paths with m alone or m/, language codes have at most five characters and start with another letter.
- **C134 Extended keys that BIP32 calls invalid are refused** — Validity of the 78 bytes as a separate specification (Spec/Bip32Text). False of the code: from_str checks neither the version beyond its letters nor the fields of a key of depth zero. Proved: valid texts are accepted, an accepted text is valid except for exactly these two reasons, both kinds of invalid text are accepted, and keys made by the library are written as valid keys.
- **C135 What is derived depends on key, chain code and depth only** — One step by the code of derive_child, paths by induction, the version by the round trip of C38.
- **C136 Which texts mean the same path** — A decimal text of v is zeros and then the usual decimal text of v (induction on the digits); with the grammars C26 and C28. Length and characters by induction on the segments.
- **C137 Path texts can be put together** — From the grammar C28: the last slash of a text is unique because no child number text has one; the errors by the cases of C28; keys by C30.

## Trusted base

**Checker.** Lean 4.33.0's kernel. The theorems listed in MANIFEST.json depend on no axioms
other than `propext`, `Classical.choice` and `Quot.sound`. There is no `sorry`, no axiom of our own, no
`native_decide` and no `bv_decide`. Large finite facts (word lists, Unicode tables, primality certificates)
are evaluated by the kernel (`decide +kernel` or `rfl`), over the whole table, not a sample.

**Faithfulness of the model.** What a reader has to believe is that the definitions in
`Verif/Model` say what the Rust files they cite say. Each definition carries the file and lines.
`validation/vectors.lean.txt` runs the model on the repository's own BIP32 and BIP39 vectors and on a published
RFC 6979 signature; all agree, and `Props/Vectors.lean` and `Props/RepoTests.lean`
(the unit tests of the repository, one by one) run part of them in the kernel. This is a test of the model, not part of any proof.
The model fixes a 64-bit target and turns a failing `debug_assert!` into a panic; C85 to C87 show that other builds agree.

**Specification.** `Verif/Spec` holds the definitions the statements are written with. It does not import
`Verif/Model`, except `Spec/Mnemonic.lean`, which says which mnemonics the API can construct in terms of the model's constructors,
`Spec/AllLanguages.lean`, which does the same for eight languages, `Spec/Heap.lean`, which lists the operations on buffers, `Spec/Chance.lean` and `Spec/ChanceFamily.lean`, which word probabilities with Mathlib's `PMF`, `Spec/ChanceKeys.lean`, a walk along a path with hash functions drawn anew at each step, `Spec/Collisions.lean`, `Spec/Lazy.lean`, which names the statics that a call dereferences, `Spec/Leak.lean`, which says what it means that a key type shows nothing, `Spec/Threads.lean`, which says that a call made alone returns what the sequential model returns, `Spec/Built.lean`, which says what a call needs, `Spec/LeakMnemonic.lean`, which picks out of a view the reads of the word list, `Spec/LeakText.lean`, which picks out of a view the text of a key, `Spec/Api.lean`, which says where the objects of a program come from and which calls panic, and `Spec/ApiErrors.lean`, the table of errors.
The elliptic curve group in the specification is Mathlib's `WeierstrassCurve.Affine.Point`.

**Dependencies modelled from their documented behaviour** (their source is not in the sandbox):

| crate | what the model assumes |
| --- | --- |
| `bs58` | big-integer base conversion with leading-zero handling and a 4-byte double SHA-256 check; errors for a bad character, short input, bad check sum, full buffer |
| `libsecp256k1` | affine group law; key parsing and range checks; `tweak_add_assign`; `==` of public keys compares the affine coordinates; signing with RFC 6979 nonces; its debug assertion on x coordinates of at least n |
| `hmac`, `pbkdf2`, `sha2`, `ripemd` | HMAC and PBKDF2 as functions over an arbitrary `Hashes` record. Theorems hold for every hash function of the right output length; `Model/RealHashes.lean` gives the real ones |
| `hmac-drbg` | as in RFC 6979 section 3.2 |
| `unicode-normalization` | decomposition and combining-class tables of Unicode 14.0 (`Data/Decompositions.lean`, `Data/CombiningClasses.lean`) |
| `encoding` (GB18030) | the encoding of the characters of the Chinese list (`Data/Gb18030.lean`) |
| `zeroize` | the loops of `Zeroize` for byte arrays, `Vec<u8>` and `String`: elements, then `clear`, then spare capacity |
| `subtle` | `ct_eq` of integers and slices by bit operations over all elements, `Choice` 0 or 1 asserted in debug builds (C117); equality elsewhere |
| `once_cell` | `sync::Lazy`: incomplete, running, complete; the closure is taken once; waiting threads block; a panic makes the cell incomplete again. Each is one atomic step |
| `core` | `split_whitespace`, `u32::from_str`, `to_ascii_lowercase`, `binary_search_by` (any behaviour that meets its contract), the growth of `Vec` and `String` (move to a larger buffer, give the old one back; C98, C99), the loops of `Vec::extend` (C114), `core::fmt` (`pad`, `pad_integral`, the `Debug` builders and their indenting writer), slice order |

**Not modelled.**

- Six of the eight languages stand under Cargo features that Cargo.toml does not declare. C94 to C97 are about builds that enable them; all other properties are about the build of Cargo.toml, with English and simplified Chinese.
- `Drop` of a user's own key type, and what its methods do inside (C110 covers implementations with state and failing methods; C88 to C90 those whose answers depend on the arguments only; the other properties are about the crate's own implementation). A `fingerprint` that keeps the default body counts as one call in C110.
- Where random numbers come from: `Mnemonic::new` takes the drawn bytes as an argument.
- Timing (except the branches and memory accesses of C117, C119 and C120, in which arithmetic, copies and hashing of a given length take the same time whatever the values and, in C119, what a lookup in a word map shows is a parameter; and the loop counts of C109, C113 and C121, in which one probe of a hash table and one amortised `Vec::push` are one step; the cost of sorting is a parameter), side channels, compiler-made copies of secrets and temporaries; only the buffers named in C49 and C76, the heap buffers of C98 and C99 and the arrays declared in src/bip32 (C115) are modelled. `XPrv` has no `Drop` of its own, so nothing is claimed about its key after drop.
- The dependency's order on public keys, if it has one; `Ord` of `ExtendedPublicKey<K>` is modelled over any order of `K` (C107).
- `Debug` of the dependency's public key; `Debug` of `ExtendedPublicKey<K>` is modelled over any `Debug` of `K` (C108). The text of `Display` and `Debug` under other format flags and writers is covered by C92, C93 and C108 only; the other properties speak of the plain forms.
- Allocation failure, and inputs of 2^61 bytes or more (C05 states the bound), except in C86.

**Tests against wrong programs.** `seeded/LOG.jsonl` lists edits of the model and the theorems that failed. Many of its records
show only that a proof stopped compiling, which does not show that the statement is false of the edited program;
`seeded/README.md` says which records show what.

**Where code and expected property disagree.** C10, C13, C21, C35, C45, C47, C49, C51, C86, C95, C97, C99, C115 and C134: each has a
theorem that exhibits the difference; see the notes in MANIFEST.json.
