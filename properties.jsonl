{"id": "C01", "title": "Entropy survives the phrase", "statement": "If Mnemonic::from_entropy(e, lang) returns Ok(m) then Mnemonic::from_phrase(m.phrase(), lang) returns Ok(m2) with m2.entropy() == e and m2.phrase() == m.phrase().", "quantifier": "every byte string e of an accepted length, both languages, every SHA-256 behaviour", "why_tests_cant": "2^128..2^256 entropies per size; the bit packing crosses byte and word boundaries differently for each size", "anchors": ["src/bip39/mnemonic.rs::from_entropy", "src/bip39/mnemonic.rs::from_phrase", "src/bip39/util.rs::BitIter", "src/bip39/util.rs::BitWriter"]}
{"id": "C02", "title": "Accepted phrases are canonical encodings", "statement": "If Mnemonic::from_phrase(p, lang) returns Ok(m) then Mnemonic::from_entropy(m.entropy(), lang) returns Ok(m2) with m2.phrase() == m.phrase(); so two accepted phrases with the same entropy have the same phrase().", "quantifier": "every input string and both languages", "why_tests_cant": "the inputs are all strings; tests sample a few valid phrases", "anchors": ["src/bip39/mnemonic.rs::from_phrase", "src/bip39/mnemonic.rs::phrase_to_entropy", "src/bip39/mnemonic.rs::from_entropy_unchecked"]}
{"id": "C03", "title": "Exact acceptance condition of from_phrase", "statement": "from_phrase(p, lang) is Ok exactly when the NFKD forms of the whitespace-separated pieces of p, re-split at spaces, are all in the language's word list, their number is 12, 15, 18, 21 or 24, and the last n/3 bits of the concatenated 11-bit word indices equal the first n/3 bits of SHA-256 of the preceding bits; the entropy returned is those preceding bits.", "quantifier": "every input string and both languages", "why_tests_cant": "an exact characterisation must reject every bad string, not just sampled ones", "anchors": ["src/bip39/mnemonic.rs::from_phrase", "src/bip39/mnemonic.rs::phrase_to_entropy", "src/bip39/util.rs::checksum"]}
{"id": "C04", "title": "Error classification of phrase parsing", "statement": "from_phrase/validate never panic; they return InvalidWord iff some piece is not in the list, otherwise InvalidWordLength(n) iff the number n of words is not a BIP39 size, otherwise InvalidChecksum iff the checksum is wrong.", "quantifier": "every input string and both languages", "why_tests_cant": "must hold for all malformed strings, including ones that exercise several errors at once", "anchors": ["src/bip39/mnemonic.rs::phrase_to_entropy", "src/bip39/mnemonic_type.rs::for_word_count"]}
{"id": "C05", "title": "Exact acceptance condition of from_entropy", "statement": "from_entropy(e, lang) is Ok exactly when e has 16, 20, 24, 28 or 32 bytes, otherwise it returns InvalidKeysize(8*len).", "quantifier": "every byte slice of a length addressable without overflow (< 2^61)", "why_tests_cant": "unbounded lengths", "anchors": ["src/bip39/mnemonic.rs::from_entropy", "src/bip39/mnemonic_type.rs::for_key_size"]}
{"id": "C06", "title": "BIP39 bit layout of generated phrases", "statement": "Word i of from_entropy(e, lang).phrase() is the list word whose index is the big-endian value of bits 11i..11i+10 of e followed by the first len(e)/4 bits of SHA-256(e); there are (8*len + len/4)/11 words, separated by single spaces.", "quantifier": "every entropy of an accepted length and both languages", "why_tests_cant": "interoperability depends on every bit of every entropy", "anchors": ["src/bip39/mnemonic.rs::from_entropy_unchecked", "src/bip39/util.rs::BitIter::next", "src/bip39/util.rs::IterExt::join"]}
{"id": "C07", "title": "Fresh mnemonics are valid and unbiased", "statement": "Mnemonic::new(t, lang) yields, for any bytes delivered by the RNG, a mnemonic with t.word_count() words that validate accepts and whose entropy() is exactly the RNG bytes; different RNG outputs give different phrases.", "quantifier": "every RNG output, mnemonic type and language", "why_tests_cant": "all RNG outputs", "anchors": ["src/bip39/mnemonic.rs::new", "src/bip39/crypto.rs::gen_random_bytes"]}
{"id": "C08", "title": "Whitespace insensitivity", "statement": "from_phrase gives the same result for two strings having the same whitespace-separated pieces (any amount and kind of Unicode white space between, before and after the words).", "quantifier": "all pairs of strings with equal pieces", "why_tests_cant": "infinitely many spacings", "anchors": ["src/bip39/mnemonic.rs::from_phrase"]}
{"id": "C09", "title": "NFKD insensitivity of phrases", "statement": "from_phrase gives the same result for two strings whose whitespace-separated pieces are pairwise NFKD-equivalent; the stored phrase is NFKD-normalised.", "quantifier": "all pairs of strings", "why_tests_cant": "all Unicode spellings", "anchors": ["src/bip39/mnemonic.rs::from_phrase"]}
{"id": "C10", "title": "validate versus from_phrase", "statement": "validate(p, lang) is Ok iff from_phrase(p, lang) is Ok(m) with m.phrase() == p. (The stronger claim that validate accepts everything from_phrase accepts is false: validate does not normalise spacing.)", "quantifier": "every string and both languages", "why_tests_cant": "relates two functions on all inputs", "anchors": ["src/bip39/mnemonic.rs::validate", "src/bip39/mnemonic.rs::from_phrase"]}
{"id": "C11", "title": "Word list is a bijection with 0..2047", "statement": "For both languages get_word and get_bits are mutually inverse between indices 0..2047 and list words; get_bits fails with InvalidWord on every other string; get_word panics exactly on indices >= 2048.", "quantifier": "every u16 index, every string, both languages", "why_tests_cant": "all strings", "anchors": ["src/bip39/language.rs::WordMap::get_bits", "src/bip39/language.rs::WordList::get_word", "src/bip39/language.rs::lazy::gen_wordmap", "src/bip39/langs/english.txt", "src/bip39/langs/chinese_simplified.txt"]}
{"id": "C12", "title": "English prefix search is exact", "statement": "Language::English.wordlist().get_words_by_prefix(q) returns exactly the list words that start with q, in list order, and never panics.", "quantifier": "every string q", "why_tests_cant": "all strings", "anchors": ["src/bip39/language.rs::WordList::get_words_by_prefix"]}
{"id": "C13", "title": "Chinese prefix search is exact", "statement": "The same for ChineseSimplified. (False in this code: the list is not sorted, so the binary search misses words. What holds: every word in the answer starts with the query, the answer is exact for queries that are not list words, and of the 2048 list words exactly 18 are found with the binary search of the standard library before Rust 1.82, exactly 7 with the later one.)", "quantifier": "every string q", "why_tests_cant": "all strings; the unsorted list makes the failures data dependent", "anchors": ["src/bip39/language.rs::WordList::get_words_by_prefix"]}
{"id": "C14", "title": "Language detection", "statement": "Language::from_phrase(m.phrase()) == Some(m.language()) for every mnemonic that can be constructed; it returns None iff the first whitespace-separated piece is in neither list.", "quantifier": "every constructible mnemonic, every string", "why_tests_cant": "all mnemonics", "anchors": ["src/bip39/language.rs::from_phrase"]}
{"id": "C15", "title": "Language codes", "statement": "from_language_code is insensitive to ASCII case, returns English exactly for codes equal to en and ChineseSimplified exactly for zh-cn up to ASCII case, and None for every other string.", "quantifier": "every string", "why_tests_cant": "all strings", "anchors": ["src/bip39/language.rs::from_language_code"]}
{"id": "C16", "title": "Mnemonic type arithmetic", "statement": "for_word_count and for_key_size are exact inverses of word_count and entropy_bits, accept only the five BIP39 sizes, and total_bits = entropy_bits + entropy_bits/32 = 11*word_count.", "quantifier": "every usize argument and every type", "why_tests_cant": "all usize values", "anchors": ["src/bip39/mnemonic_type.rs::for_word_count", "src/bip39/mnemonic_type.rs::for_key_size", "src/bip39/mnemonic_type.rs::entropy_bits", "src/bip39/mnemonic_type.rs::checksum_bits", "src/bip39/mnemonic_type.rs::word_count"]}
{"id": "C17", "title": "Phrase type detection", "statement": "If from_phrase(p) is Ok(m) then MnemonicType::for_phrase(m.phrase()) is Ok(t) with t.entropy_bits() == 8*m.entropy().len(). For any text, for_phrase depends only on the number s of spaces in it: it is Ok(t) exactly when t.word_count() == s + 1, and if no type has s + 1 words it is Err(InvalidWordLength(s + 1)).", "quantifier": "every string", "why_tests_cant": "all strings", "anchors": ["src/bip39/mnemonic_type.rs::for_phrase"]}
{"id": "C18", "title": "Checksum strength", "statement": "For any first n-1 words of the list there are exactly 2^(11-n/3) choices of last word that validate accepts.", "quantifier": "every choice of the first n-1 words, n in {12,15,18,21,24}, both languages", "why_tests_cant": "2048^(n-1) prefixes", "anchors": ["src/bip39/mnemonic.rs::phrase_to_entropy", "src/bip39/util.rs::checksum"]}
{"id": "C19", "title": "Seeds have 64 bytes", "statement": "Seed::new(m, pw).as_bytes() has 64 bytes for every mnemonic and password, hence XPrv::new(seed) never returns SeedLength.", "quantifier": "every mnemonic and password", "why_tests_cant": "all inputs", "anchors": ["src/bip39/seed.rs::new", "src/bip39/crypto.rs::pbkdf2", "src/bip32/extended_key/extended_private_key.rs::new"]}
{"id": "C20", "title": "Password NFKD insensitivity and BIP39 salt", "statement": "Seed::new(m, pw) = PBKDF2-HMAC-SHA512(bytes of phrase, \"mnemonic\" + NFKD(pw), 2048, 64); NFKD-equivalent passwords give equal seeds; for English mnemonics the password argument is the UTF-8 phrase, as BIP39 requires.", "quantifier": "every mnemonic and password", "why_tests_cant": "all Unicode passwords", "anchors": ["src/bip39/seed.rs::new", "src/bip39/mnemonic.rs::as_bytes"]}
{"id": "C21", "title": "Chinese seeds follow BIP39", "statement": "For ChineseSimplified the PBKDF2 input is the UTF-8 phrase as BIP39 requires. (False: the code feeds GB18030 bytes. What holds is that the GB18030 bytes still determine the phrase.)", "quantifier": "every Chinese mnemonic", "why_tests_cant": "all mnemonics", "anchors": ["src/bip39/mnemonic.rs::as_bytes"]}
{"id": "C22", "title": "Hex formatting", "statement": "format {:x}/{:X} of Seed and Mnemonic prints two digits per byte in order, decodes back to the bytes, and {:#x}/{:#X} only add 0x; Debug of Seed is {:#X}.", "quantifier": "every byte string", "why_tests_cant": "all byte values and lengths", "anchors": ["src/bip39/seed.rs::LowerHex", "src/bip39/seed.rs::UpperHex", "src/bip39/mnemonic.rs::LowerHex", "src/bip39/mnemonic.rs::UpperHex"]}
{"id": "C23", "title": "Child number construction", "statement": "ChildNumber::new(i, h) is Ok(c) iff i < 2^31, and then c.index() == i and c.is_hardened() == h; every u32 arises this way exactly once; otherwise Err(ChildNumber).", "quantifier": "every u32 and bool", "why_tests_cant": "2^33 inputs", "anchors": ["src/bip32/child_number.rs::new", "src/bip32/child_number.rs::index", "src/bip32/child_number.rs::is_hardened"]}
{"id": "C24", "title": "Child number bytes", "statement": "from_bytes and to_bytes are inverse and big endian; the order of child numbers is the order of their bytes.", "quantifier": "every u32 / 4-byte array", "why_tests_cant": "2^32 inputs", "anchors": ["src/bip32/child_number.rs::from_bytes", "src/bip32/child_number.rs::to_bytes"]}
{"id": "C25", "title": "Child number text round trip", "statement": "c.to_string().parse() == Ok(c) for every child number.", "quantifier": "every u32", "why_tests_cant": "2^32 inputs", "anchors": ["src/bip32/child_number.rs::Display::fmt", "src/bip32/child_number.rs::from_str"]}
{"id": "C26", "title": "Child number grammar", "statement": "parse accepts exactly an optional '+', one or more decimal digits with value below 2^31, and an optional final apostrophe; everything else is Err(ChildNumber), with no panic on any length.", "quantifier": "every string", "why_tests_cant": "all strings, including overflowing digit runs", "anchors": ["src/bip32/child_number.rs::from_str"]}
{"id": "C27", "title": "Derivation path text round trip", "statement": "path.to_string().parse() == Ok(path) for every path of any length; distinct paths print differently.", "quantifier": "every list of child numbers", "why_tests_cant": "unbounded lengths", "anchors": ["src/bip32/derivation_path.rs::Display::fmt", "src/bip32/derivation_path.rs::from_str"]}
{"id": "C28", "title": "Derivation path grammar", "statement": "parse accepts exactly 'm' followed by zero or more '/'-prefixed child numbers, in order; a string whose first segment is not m gives Decode, otherwise a bad segment gives ChildNumber.", "quantifier": "every string", "why_tests_cant": "all strings", "anchors": ["src/bip32/derivation_path.rs::from_str"]}
{"id": "C29", "title": "Derivation path structure", "statement": "parent() is None exactly for the root, push then parent is the identity, len/is_empty/iter agree with the pushed sequence for any sequence of push/extend/parent operations.", "quantifier": "every operation sequence", "why_tests_cant": "unbounded histories", "anchors": ["src/bip32/derivation_path.rs::parent", "src/bip32/derivation_path.rs::push", "src/bip32/derivation_path.rs::extend", "src/bip32/derivation_path.rs::len"]}
{"id": "C30", "title": "Path derivation composes", "statement": "derive_from_path(p) followed by derive_from_path(q) equals derive_from_path(p then q), and new_from_path(seed, p) equals new(seed) followed by derive_from_path(p), including errors; for private and public keys.", "quantifier": "every key, seed and pair of paths", "why_tests_cant": "unbounded path lengths", "anchors": ["src/bip32/extended_key/extended_private_key.rs::derive_from_path", "src/bip32/extended_key/extended_private_key.rs::new_from_path", "src/bip32/extended_key/extended_public_key.rs::derive_from_path"]}
{"id": "C31", "title": "Public derivation matches private derivation", "statement": "For every non-hardened child number, xprv.derive_child(i).map(public_key) == xprv.public_key().derive_child(i), as full outcomes (Ok value, error or panic); and likewise along any path of non-hardened numbers.", "quantifier": "every extended private key, every non-hardened index or path, every HMAC behaviour", "why_tests_cant": "depends on the group law of secp256k1 for all scalars", "anchors": ["src/bip32/extended_key/extended_private_key.rs::derive_child", "src/bip32/extended_key/extended_public_key.rs::derive_child", "src/bip32/private_key.rs::derive_child", "src/bip32/public_key.rs::derive_child"]}
{"id": "C32", "title": "No hardened children from public keys", "statement": "XPub::derive_child(i) with i >= 2^31 is Err(ChildNumber) for every key at every depth; derive_from_path fails on any path containing a hardened number.", "quantifier": "every xpub, every hardened index", "why_tests_cant": "all keys and 2^31 indices", "anchors": ["src/bip32/extended_key/extended_public_key.rs::derive_child"]}
{"id": "C33", "title": "Depth discipline", "statement": "A successful derivation increases depth by exactly one per path element; at depth 255, and at no smaller depth, derive_child returns Err(Depth), and it never wraps; so no path longer than 255 - depth succeeds.", "quantifier": "every key and path", "why_tests_cant": "unbounded path lengths", "anchors": ["src/bip32/extended_key/extended_private_key.rs::derive_child", "src/bip32/extended_key/extended_public_key.rs::derive_child"]}
{"id": "C34", "title": "Child key formula", "statement": "On success the child has key (parse256(IL) + k) mod n, chain code IR, the requested child number, the parent's fingerprint and depth+1, where I = HMAC-SHA512(chain code, 0x00||k||ser32(i)) if hardened and (chain code, serP(K)||ser32(i)) otherwise.", "quantifier": "every parent key and child number", "why_tests_cant": "all keys", "anchors": ["src/bip32/extended_key/extended_private_key.rs::derive_child"]}
{"id": "C35", "title": "Derivation never panics", "statement": "derive_child returns Ok or Err on every input (the source comment promises an error when IL is zero or >= n). (False in this code: an out-of-range IL panics through unwrap; the exact outcome for every IL is characterised.)", "quantifier": "every key, child number and HMAC output", "why_tests_cant": "the failing HMAC outputs have probability 2^-127 and cannot be sampled", "anchors": ["src/bip32/private_key.rs::derive_child", "src/bip32/public_key.rs::derive_child"]}
{"id": "C36", "title": "Seed acceptance", "statement": "XPrv::new(seed) is Err(SeedLength) iff the length is not 16, 32, 64 or 128; otherwise it is Ok with depth 0, zero fingerprint, child number 0 and the two halves of HMAC-SHA512(\"Bitcoin seed\", seed) as key and chain code, or Err(Crypto) iff the left half is 0 or >= n; it never panics.", "quantifier": "every byte string", "why_tests_cant": "unbounded lengths", "anchors": ["src/bip32/extended_key/extended_private_key.rs::new"]}
{"id": "C37", "title": "Keys stay in range", "statement": "Every private key obtained by any sequence of new, derive_child, derive_from_path, parsing and serialising is in [1, n-1], and its public key is a point of secp256k1 other than infinity.", "quantifier": "every history of API calls", "why_tests_cant": "unbounded histories", "anchors": ["src/bip32/extended_key/extended_private_key.rs", "src/bip32/extended_key/extended_public_key.rs", "src/bip32/private_key.rs"]}
{"id": "C38", "title": "xprv text round trip", "statement": "XPrv::from_str(k.to_string(P)) is Ok with the same private key and attributes, for P in XPRV, TPRV, YPRV, ZPRV.", "quantifier": "every extended private key", "why_tests_cant": "all keys and attributes; the textual prefix must come out right for every payload", "anchors": ["src/bip32/extended_key/extended_private_key.rs::to_string", "src/bip32/extended_key/extended_private_key.rs::from_str", "src/bip32/extended_key/mod.rs::write_base58", "src/bip32/extended_key/mod.rs::from_str"]}
{"id": "C39", "title": "xpub text round trip", "statement": "XPub::from_str(k.to_string(P)) == Ok(k) for P in XPUB, TPUB, YPUB, ZPUB.", "quantifier": "every extended public key", "why_tests_cant": "all curve points", "anchors": ["src/bip32/extended_key/extended_public_key.rs::to_string", "src/bip32/extended_key/extended_public_key.rs::from_str", "src/bip32/public_key.rs::from_bytes"]}
{"id": "C40", "title": "Extended key text is canonical", "statement": "If ExtendedKey::from_str(s) is Ok(k) then k.to_string() == s; hence two different strings never denote the same extended key.", "quantifier": "every string", "why_tests_cant": "all strings", "anchors": ["src/bip32/extended_key/mod.rs::from_str", "src/bip32/extended_key/mod.rs::Display::fmt"]}
{"id": "C41", "title": "Serialisation always succeeds and fits", "statement": "ExtendedKey::write_base58 succeeds for every key with at most 112 characters, all in the Base58 alphabet; with the eight predefined prefixes it is exactly 111 characters and starts with the prefix text.", "quantifier": "every extended key", "why_tests_cant": "a numeric fact about all 2^624 payloads", "anchors": ["src/bip32/extended_key/mod.rs::write_base58", "src/bip32/prefix.rs"]}
{"id": "C42", "title": "BIP32 byte layout", "statement": "The Base58Check payload of an extended key is version(4) depth(1) fingerprint(4) child(4, big endian) chain code(32) key(33) and the checksum is the first four bytes of SHA-256(SHA-256(payload)).", "quantifier": "every extended key", "why_tests_cant": "all keys", "anchors": ["src/bip32/extended_key/mod.rs::write_base58"]}
{"id": "C43", "title": "Exact acceptance of extended key text", "statement": "ExtendedKey::from_str(s) is Ok iff s is the Base58Check encoding of a 78-byte payload and its first four characters are letters; it never panics on any string.", "quantifier": "every string, including non-ASCII and over-long ones", "why_tests_cant": "all strings", "anchors": ["src/bip32/extended_key/mod.rs::from_str", "src/bip32/prefix.rs::validate_str"]}
{"id": "C44", "title": "Private and public text do not mix", "statement": "No string parses both as XPrv and as XPub; an XPrv serialised with any public-prefix constant parses as neither.", "quantifier": "every string and every key", "why_tests_cant": "all strings", "anchors": ["src/bip32/extended_key/extended_private_key.rs::try_from", "src/bip32/extended_key/extended_public_key.rs::try_from", "src/bip32/prefix.rs::is_private", "src/bip32/prefix.rs::is_public"]}
{"id": "C45", "title": "XPrv equality means same key", "statement": "a == b for extended private keys iff private keys and all attributes agree. (False in this code: ct_eq compares self with self for the key bytes; == ignores the private key.)", "quantifier": "every pair of keys", "why_tests_cant": "all pairs", "anchors": ["src/bip32/extended_key/extended_private_key.rs::ct_eq", "src/bip32/extended_key/extended_private_key.rs::PartialEq::eq"]}
{"id": "C46", "title": "Prefix constants and versions", "statement": "The eight constants are what Prefix::try_from gives for their version, have distinct versions and exactly one of is_public/is_private; to_bytes/from_bytes round-trip for every prefix returned by try_from; try_from of any version takes the first four characters of the text of the all-zero key with that version, succeeds exactly when they are ASCII letters, and is_public/is_private follow those letters.", "quantifier": "every u32 version and every byte slice", "why_tests_cant": "2^32 versions", "anchors": ["src/bip32/prefix.rs::from_version", "src/bip32/prefix.rs::from_bytes", "src/bip32/prefix.rs::validate_str"]}
{"id": "C47", "title": "Version determines the text prefix", "statement": "For every version accepted by Prefix::try_from, a key serialised with that prefix parses back with the same prefix. (False in general: the first four Base58 characters can depend on the payload; it holds for the eight constants.)", "quantifier": "every accepted version and every key", "why_tests_cant": "the counterexamples sit at numeric boundaries", "anchors": ["src/bip32/prefix.rs::from_version", "src/bip32/extended_key/mod.rs::from_str"]}
{"id": "C48", "title": "Debug output hides the private key", "statement": "The Debug rendering of an extended private key is independent of the private key.", "quantifier": "every pair of keys with equal attributes", "why_tests_cant": "all keys", "anchors": ["src/bip32/extended_key/extended_private_key.rs::Debug::fmt"]}
{"id": "C49", "title": "Serialisation scratch buffers are wiped", "statement": "write_base58 always wipes its byte buffer; from_str wipes its buffer on success. (It does not on its error paths.)", "quantifier": "every key and every string", "why_tests_cant": "all inputs", "anchors": ["src/bip32/extended_key/mod.rs::write_base58", "src/bip32/extended_key/mod.rs::from_str"]}
{"id": "C50", "title": "Compressed public keys", "statement": "to_bytes/from_bytes of public keys are inverse: every point round-trips and every accepted 33-byte string re-serialises to itself; acceptance is exactly tag 2 or 3 with x < p and x^3+7 a square.", "quantifier": "every point and every 33-byte string", "why_tests_cant": "2^264 strings", "anchors": ["src/bip32/public_key.rs::from_bytes", "src/bip32/public_key.rs::to_bytes"]}
{"id": "C51", "title": "ECDSA signatures verify", "statement": "ecdsa_sign(sk, msg) errs iff msg is not 32 bytes; otherwise the returned (r, s) satisfies the ECDSA equation for the public key of sk, s <= n/2, and the recovery id recovers that public key.", "quantifier": "every key, message and nonce", "why_tests_cant": "all keys, messages, nonces", "anchors": ["src/lib.rs::ecdsa_sign"]}
{"id": "C52", "title": "Derivation domain separation", "statement": "Two derive_child calls on keys that feed the same bytes to HMAC have the same hardenedness, child number and key; hardened and non-hardened inputs never coincide.", "quantifier": "every pair of keys and child numbers", "why_tests_cant": "all pairs", "anchors": ["src/bip32/extended_key/extended_private_key.rs::derive_child"]}
{"id": "C53", "title": "Wallet recovery end to end", "statement": "Re-entering the phrase of any generated mnemonic with any spacing, and the same password up to NFKD, yields the same seed and the same extended private key at every path.", "quantifier": "every entropy, password, path", "why_tests_cant": "composition over all inputs", "anchors": ["src/bip39/mnemonic.rs", "src/bip39/seed.rs", "src/bip32/extended_key/extended_private_key.rs::new_from_path"]}
{"id": "C54", "title": "Watch-only wallet end to end", "statement": "Exporting xprv.public_key() as xpub text, parsing it elsewhere and deriving any non-hardened path gives the same xpub text as deriving privately and exporting.", "quantifier": "every xprv and non-hardened path", "why_tests_cant": "composition over all inputs", "anchors": ["src/bip32/extended_key/extended_private_key.rs", "src/bip32/extended_key/extended_public_key.rs", "src/bip32/extended_key/mod.rs"]}
{"id": "C55", "title": "Neutering preserves attributes", "statement": "xprv.public_key() has the same attributes as xprv and its fingerprint is the first four bytes of RIPEMD160(SHA256(compressed key)), which is the parent fingerprint of every child. The conversions to libsecp256k1 keys keep the key: SecretKey::from(xprv) has the bytes of xprv.to_bytes(), PublicKey::from(xpub) those of xpub.to_bytes(), and converting the public key of a private key gives its point.", "quantifier": "every key", "why_tests_cant": "all keys", "anchors": ["src/bip32/extended_key/extended_public_key.rs::From", "src/bip32/public_key.rs::fingerprint", "src/bip32/private_key.rs::From<XPrv>", "src/bip32/public_key.rs::From<XPub>"]}
{"id": "C56", "title": "ripemd helper", "statement": "crypto::ripemd(msg) is 40 lowercase hex digits that decode to the RIPEMD-160 digest.", "quantifier": "every message", "why_tests_cant": "all messages", "anchors": ["src/crypto.rs::ripemd"]}
{"id": "C57", "title": "Public child formula", "statement": "For every extended public key that is the curve point Q, derive_child succeeds exactly when the number is not hardened, the depth is below 255, I_L is in [1, n-1] and Q + I_L*G is not infinity, where I = HMAC-SHA512(chain code, serP(Q) || ser32(i)); the child is then the point Q + I_L*G with chain code I_R, depth one more, the requested number and the fingerprint of Q.", "quantifier": "every extended public key, child number and hash function", "why_tests_cant": "about 2^256 keys times 2^32 indices", "anchors": ["src/bip32/extended_key/extended_public_key.rs::derive_child", "src/bip32/public_key.rs::derive_child"]}
{"id": "C58", "title": "One private key per public key", "statement": "Two private keys with the same public key are equal, and every 33-byte string accepted as a public key is the public key of exactly one private key.", "quantifier": "every private key and every accepted public key", "why_tests_cant": "needs the order of the curve group; cannot be enumerated", "anchors": ["src/bip32/private_key.rs::public_key", "src/bip32/public_key.rs::from_bytes"]}
{"id": "C59", "title": "Exact acceptance of private key text", "statement": "XPrv::from_str(s) succeeds exactly when s is the Base58Check text of a 78-byte payload, s starts with one letter followed by prv, byte 45 of the payload is zero, and its last 32 bytes are a number in [1, n-1]; the key then has the depth, parent fingerprint, child number, chain code and secret written there.", "quantifier": "every string and hash function", "why_tests_cant": "all strings, and every way of being malformed", "anchors": ["src/bip32/extended_key/extended_private_key.rs::TryFrom<ExtendedKey>", "src/bip32/extended_key/mod.rs::FromStr"]}
{"id": "C60", "title": "Exact acceptance of public key text", "statement": "XPub::from_str(s) succeeds exactly when s is the Base58Check text of a 78-byte payload, s starts with one letter followed by pub, and the last 33 bytes of the payload are a compressed encoding of a point on secp256k1; the key then has the fields written there.", "quantifier": "every string and hash function", "why_tests_cant": "all strings, and every way of being malformed", "anchors": ["src/bip32/extended_key/extended_public_key.rs::TryFrom<ExtendedKey>", "src/bip32/public_key.rs::from_bytes"]}
{"id": "C61", "title": "RFC 6979 nonces", "statement": "In a release build, ecdsa_sign of a 32-byte message uses the first usable nonce candidate of RFC 6979 (HMAC-SHA256, message value reduced modulo n), makes s low, and returns r and s as 32 big-endian bytes each with the recovery id; it returns exactly when some candidate is usable and never panics.", "quantifier": "every key, 32-byte message and hash function, any number of rejected candidates", "why_tests_cant": "a rejected candidate has probability 2^-128, so no test reaches the second turn of the loop", "anchors": ["src/lib.rs::ecdsa_sign"]}
{"id": "C62", "title": "Signing in debug builds", "statement": "In a build with debug assertions ecdsa_sign returns the same signatures as a release build, with recovery id 0 or 1, and panics exactly when it meets a nonce in range whose curve point has an x coordinate of at least n before it finds a usable one.", "quantifier": "every key, 32-byte message and hash function", "why_tests_cant": "such nonces have probability 2^-128", "anchors": ["src/lib.rs::ecdsa_sign"]}
{"id": "C63", "title": "NFKD is Unicode's normalisation form KD", "statement": "The normalisation used by from_phrase and by Seed::new decomposes every character fully, puts combining marks in canonical order, is the only string so obtained, decomposes every Hangul syllable into its jamo, and normalising a concatenation of normalised pieces equals normalising the concatenation.", "quantifier": "every string; every Hangul syllable", "why_tests_cant": "arbitrary strings with arbitrarily long runs of combining marks", "anchors": ["src/bip39/mnemonic.rs::from_phrase", "src/bip39/seed.rs::new"]}
{"id": "C64", "title": "Four letters identify an English word", "statement": "Every English list word has 3 to 8 letters, the first four letters determine it, and get_words_by_prefix with at least four letters of a word of at least four letters returns exactly that word.", "quantifier": "every English word, every prefix of at least four letters, every search order", "why_tests_cant": "a claim about all pairs of words and all behaviours of the binary search", "anchors": ["src/bip39/language.rs::get_words_by_prefix"]}
{"id": "C65", "title": "Non-hardened derivation can be unwound", "statement": "For a non-hardened path, derived public key = parent public key + t*G where t depends only on the parent's public data; hence whoever has the parent xpub and a derived private key can compute the parent private key.", "quantifier": "every extended key, path and hash function", "why_tests_cant": "arbitrary path length and arbitrary hash function", "anchors": ["src/bip32/extended_key/extended_private_key.rs::derive_child", "src/bip32/extended_key/extended_public_key.rs::derive_child"]}
{"id": "C66", "title": "Child keys differ", "statement": "A derived child never has its parent's private or public key; two children of one parent share a key exactly when the left halves of their HMACs coincide.", "quantifier": "every extended key, child numbers and hash function", "why_tests_cant": "needs every HMAC output", "anchors": ["src/bip32/extended_key/extended_private_key.rs::derive_child"]}
{"id": "C67", "title": "Order of attributes and prefixes", "statement": "Comparing ExtendedKeyAttrs orders them as the 41 bytes they occupy in the serialised key; comparing Prefix orders by text then version; equal means identical; comparison is antisymmetric.", "quantifier": "every pair of attributes and prefixes", "why_tests_cant": "all pairs of 41-byte values", "anchors": ["src/bip32/extended_key/attrs.rs::ExtendedKeyAttrs", "src/bip32/prefix.rs::Prefix"]}
{"id": "C68", "title": "Number of valid phrases", "statement": "For either language, exactly 2^(32n/3) strings of n words pass validate for n = 12, 15, 18, 21, 24, no string of another size passes, and in total 2^128+2^160+2^192+2^224+2^256 strings pass.", "quantifier": "every string, both languages, every hash function", "why_tests_cant": "counts sets of up to 2^256 strings", "anchors": ["src/bip39/mnemonic.rs::validate", "src/bip39/mnemonic.rs::from_entropy"]}
{"id": "C69", "title": "Text forms of a mnemonic agree", "statement": "Display and into_phrase give the phrase and Debug the phrase in quotes; the phrase consists of spaces and characters of its language's alphabet; parsing the displayed text in that language gives the same mnemonic back.", "quantifier": "every mnemonic obtainable through the API", "why_tests_cant": "every entropy of every size", "anchors": ["src/bip39/mnemonic.rs::Display", "src/bip39/mnemonic.rs::Debug", "src/bip39/mnemonic.rs::into_phrase"]}
{"id": "C70", "title": "Phrase sizes describe themselves", "statement": "The displayed size names its word count and entropy bits; word count, entropy bits and display each determine the size; the default is 12 words and English.", "quantifier": "every MnemonicType", "why_tests_cant": "small domain, listed for completeness: it fixes the constants the other properties use", "anchors": ["src/bip39/mnemonic_type.rs::MnemonicType", "src/bip39/language.rs::Language"]}
{"id": "C71", "title": "Seed inputs separate wallets", "statement": "The password and salt given to PBKDF2 determine the mnemonic and the NFKD form of the passphrase, so two different wallets share a seed only if PBKDF2 collides.", "quantifier": "every pair of obtainable mnemonics and passphrases", "why_tests_cant": "all pairs of mnemonics and strings, across two encodings", "anchors": ["src/bip39/seed.rs::new", "src/bip39/mnemonic.rs::as_bytes"]}
{"id": "C72", "title": "Text separates extended keys", "statement": "Extended keys with equal text have equal version, attributes and key bytes; private (respectively public) keys with equal text are equal; a private key and a public key never have the same text.", "quantifier": "every pair of extended keys and prefixes, every hash function", "why_tests_cant": "all pairs of keys", "anchors": ["src/bip32/extended_key/mod.rs::Display", "src/bip32/extended_key/extended_private_key.rs::to_string", "src/bip32/extended_key/extended_public_key.rs::to_string"]}
{"id": "C73", "title": "Signing sees the message modulo the group order", "statement": "ecdsa_sign gives the same outcome for 32-byte messages congruent modulo n, and different 32-byte messages exist which every key signs identically.", "quantifier": "every key, message pair, hash function and number of nonce attempts", "why_tests_cant": "colliding pairs lie within 2^129 of the top of the range, never hit by random tests", "anchors": ["src/lib.rs::ecdsa_sign"]}
{"id": "C74", "title": "A watch-only holder verifies derived signatures", "statement": "Exporting the public key as text, importing it and deriving along a path without hardened numbers gives the public key under which signatures by the privately derived key verify, and which the recovery id recovers (unless r = 0).", "quantifier": "every key, public prefix, non-hardened path, message and hash function", "why_tests_cant": "arbitrary path length and keys", "anchors": ["src/bip32/extended_key/extended_public_key.rs::from_str", "src/bip32/extended_key/extended_public_key.rs::derive_child", "src/lib.rs::ecdsa_sign"]}
{"id": "C75", "title": "Untrusted input does not panic", "statement": "Building, parsing and validating mnemonics, phrase sizes, child numbers, paths, prefixes and extended keys, printing keys, making a master key and (in a release build) signing return a value or an error, never a panic, on every input. Derivation is not in this list: see C35.", "quantifier": "every input; entropy shorter than 2^61 bytes", "why_tests_cant": "every string and byte sequence of any length", "anchors": ["src/bip39/mnemonic.rs", "src/bip39/mnemonic_type.rs", "src/bip32"]}
{"id": "C76", "title": "Secrets are wiped on drop", "statement": "Dropping a Seed or a Mnemonic leaves zeros in every cell of the buffers it owns, spare capacity included; into_phrase hands over the phrase and leaves zeros in the entropy's buffer.", "quantifier": "every buffer, capacity, length and content", "why_tests_cant": "needs inspection of freed memory, for every capacity", "anchors": ["src/bip39/seed.rs::drop", "src/bip39/mnemonic.rs::Mnemonic", "src/bip39/mnemonic.rs::into_phrase"]}
{"id": "C77", "title": "Error messages identify the error", "statement": "The displayed message of an error determines the error and the number in it; messages of the phrase module and of the key module never coincide. The signing error of the crate has one message whatever the cause, different from all the others, and its source gives the cause.", "quantifier": "every pair of errors, every number", "why_tests_cant": "numbers range over all of usize", "anchors": ["src/bip39/error.rs::ErrorKind", "src/bip32/error.rs::Error", "src/error.rs::Error"]}
{"id": "C78", "title": "Debug text of prefixes and paths", "statement": "{:?} of a Prefix shows its four characters and its version as 0x and eight lowercase hex digits whose value is the version; {:?} of a DerivationPath lists the 32-bit child numbers in order, with the hardened bit.", "quantifier": "every prefix and every path", "why_tests_cant": "one text per path; unboundedly many paths", "anchors": ["src/bip32/prefix.rs::fmt", "src/bip32/derivation_path.rs::DerivationPath", "src/bip32/child_number.rs::ChildNumber"]}
{"id": "C79", "title": "Failures of public derivation", "statement": "For an XPub holding the point Q, derive_child(i) is Err(ChildNumber) exactly if i is hardened, otherwise Err(Depth) exactly at depth 255, otherwise Err(Crypto) exactly if I_L is in [1, n-1] and Q + I_L G is infinity, and panics exactly if I_L is 0 or at least n; no other error occurs.", "quantifier": "every public key on the curve, every child number, every hash function", "why_tests_cant": "needs hash outputs that no test can reach", "anchors": ["src/bip32/extended_key/extended_public_key.rs::derive_child", "src/bip32/public_key.rs::derive_child"]}
{"id": "C80", "title": "The first failing step decides", "statement": "derive_from_path (private, public, and new_from_path from a seed) fails with r exactly if some step fails with r after all earlier steps succeeded; the numbers after the first failing one are irrelevant.", "quantifier": "every key, seed and path of any length", "why_tests_cant": "paths of every length; failures that depend on hash outputs", "anchors": ["src/bip32/extended_key/extended_private_key.rs::derive_from_path", "src/bip32/extended_key/extended_private_key.rs::new_from_path", "src/bip32/extended_key/extended_public_key.rs::derive_from_path"]}
{"id": "C81", "title": "Reading then writing a key returns the text", "statement": "If s parses as an XPrv or XPub, to_string(q) of the result is s exactly for the prefixes q with the version s was written with; in particular for the prefix s was read with.", "quantifier": "every string and every prefix", "why_tests_cant": "all strings", "anchors": ["src/bip32/extended_key/extended_private_key.rs::from_str", "src/bip32/extended_key/extended_private_key.rs::to_string", "src/bip32/extended_key/extended_public_key.rs::from_str"]}
{"id": "C82", "title": "Derivation can be stopped and resumed", "statement": "Deriving a path p, exporting the key as text, importing it and deriving a path q has the same outcome (key, error or panic) as deriving p followed by q; for private keys with the four private prefixes, from a key or a seed, and for public keys with the four public ones.", "quantifier": "every key, seed and pair of paths", "why_tests_cant": "all paths and split points", "anchors": ["src/bip32/extended_key/extended_private_key.rs::derive_from_path", "src/bip32/extended_key/extended_private_key.rs::to_string", "src/bip32/extended_key/extended_private_key.rs::from_str", "src/bip32/extended_key/extended_public_key.rs::derive_from_path"]}
{"id": "C83", "title": "What == means on public values", "statement": "For XPubs, a == b exactly if their texts agree with one prefix, equivalently with every prefix, equivalently if to_bytes and attrs agree. For ChildNumber, DerivationPath, Prefix and ExtendedKeyAttrs, == holds exactly if their bytes/texts/fields agree, and exactly if cmp is Equal where there is an order.", "quantifier": "every pair of values", "why_tests_cant": "all pairs", "anchors": ["src/bip32/extended_key/extended_public_key.rs::ExtendedPublicKey", "src/bip32/extended_key/attrs.rs::ExtendedKeyAttrs", "src/bip32/child_number.rs::ChildNumber", "src/bip32/derivation_path.rs::DerivationPath", "src/bip32/prefix.rs::Prefix"]}
{"id": "C84", "title": "Word lists under concurrent first use", "statement": "Whichever threads call wordlist() and wordmap() of whichever languages first, in whatever interleaving, no thread panics or deadlocks, every call returns the right list or map, each static is built at most once and never replaced, and every execution finishes within 8 steps per call.", "quantifier": "every number of threads, every sequence of calls in each, every schedule, debug and release builds", "why_tests_cant": "schedules cannot be enumerated by tests", "anchors": ["src/bip39/language.rs::lazy", "src/bip39/language.rs::wordlist", "src/bip39/language.rs::wordmap"]}
{"id": "C85", "title": "Results do not depend on the build", "statement": "With overflow checks on or off, debug assertions on or off and a usize of 32 or 64 bits, from_entropy (slices whose bit length fits a usize), Mnemonic::new, from_phrase and validate (phrases of at most 2^(usize bits - 3) characters), the MnemonicType numbers, the word lists and maps and get_words_by_prefix give the same results: no operation overflows, no shift is too long, no debug_assert fails.", "quantifier": "every build profile and pointer width, every entropy, phrase, prefix and language within the stated lengths", "why_tests_cant": "tests run one profile on one target and a finite set of inputs", "anchors": ["src/bip39/util.rs::BitWriter", "src/bip39/util.rs::BitIter", "src/bip39/util.rs::checksum", "src/bip39/util.rs::join", "src/bip39/mnemonic.rs::from_entropy", "src/bip39/mnemonic.rs::phrase_to_entropy", "src/bip39/mnemonic_type.rs", "src/bip39/language.rs::gen_wordlist", "src/bip39/language.rs::get_words_by_prefix"]}
{"id": "C86", "title": "Inputs too long for the machine's integers", "statement": "from_entropy on a slice of at least 2^usize bits and validate on list words holding at least 2^usize bits panic when overflow checks are on. With checks off the number of bits is reduced modulo 2^usize. from_entropy then reports the reduced number unless it is a key size; if it is one, it returns a mnemonic of the whole slice, with a word for every 11 bits of the slice and one byte of its hash, which is no BIP39 phrase (given memory for the text). validate of n words uses m = (11 n mod 2^usize) / 11: it reports m, or, if m is 12, 15, 18, 21 or 24, answers as for the first m words alone; with debug assertions on it panics instead of that answer if the division has a remainder. So a 32-bit release build accepts a phrase of 390451585 words and a slice of 2^29 + 16 bytes.", "quantifier": "every setting of overflow checks and assertions, both pointer widths, every slice and every sequence of list words of that length", "why_tests_cant": "inputs of gigabytes", "anchors": ["src/bip39/mnemonic.rs::from_entropy", "src/bip39/mnemonic.rs::phrase_to_entropy", "src/bip39/util.rs::BitWriter::len"]}
{"id": "C87", "title": "Key text does not depend on the build", "statement": "Reading and writing the Base58Check text of keys gives the same text, error and buffer contents with overflow checks on or off and a usize of 32 or 64 bits.", "quantifier": "every build profile, pointer width, payload, string and buffer size below 2 GiB", "why_tests_cant": "tests run one profile on one target and a finite set of inputs", "anchors": ["src/bip32/extended_key/mod.rs::write_base58", "src/bip32/extended_key/mod.rs::from_str", "src/bip32/prefix.rs::from_version"]}
{"id": "C88", "title": "Extended keys over any key type", "statement": "ExtendedPrivateKey<K> and ExtendedPublicKey<K> work for every implementation of the public traits PrivateKey and PublicKey. new and derive_child give the implementation the left half of the HMAC of BIP32 and pass on its key, error or panic; seed length, depth 255 and hardened public children are refused without asking it. The attributes of a new key are those of BIP32, with the implementation's own fingerprint. Equality and Debug of private keys depend on the attributes only. XPrv and XPub are the instance at libsecp256k1's keys.", "quantifier": "every implementation of the two traits (functions without hidden state), hash functions, seed, key, child number and path", "why_tests_cant": "user implementations of a public trait cannot be enumerated", "anchors": ["src/bip32/private_key.rs::PrivateKey", "src/bip32/public_key.rs::PublicKey", "src/bip32/extended_key/extended_private_key.rs::ExtendedPrivateKey", "src/bip32/extended_key/extended_public_key.rs::ExtendedPublicKey"]}
{"id": "C89", "title": "Text of extended keys over any key type", "statement": "For every implementation, a string parses exactly when it is the Base58Check text of a BIP32 payload with a private (public) prefix whose key bytes the implementation accepts; its errors and panics are passed on. Writing then reading returns the key if the implementation reads back that key's bytes; reading then writing returns the text if it writes back the bytes it reads.", "quantifier": "every implementation, string, key and predefined prefix", "why_tests_cant": "user implementations of a public trait cannot be enumerated", "anchors": ["src/bip32/extended_key/extended_private_key.rs::FromStr", "src/bip32/extended_key/extended_private_key.rs::TryFrom<ExtendedKey>", "src/bip32/extended_key/extended_public_key.rs::FromStr", "src/bip32/extended_key/extended_public_key.rs::TryFrom<ExtendedKey>"]}
{"id": "C90", "title": "What watch-only derivation needs from a key type", "statement": "Public derivation agrees with private derivation, for all keys and non-hardened paths, if and only if the implementation's derive_child commutes with its public_key.", "quantifier": "every implementation, hash functions, key and non-hardened path", "why_tests_cant": "user implementations of a public trait cannot be enumerated", "anchors": ["src/bip32/extended_key/extended_private_key.rs::derive_child", "src/bip32/extended_key/extended_public_key.rs::derive_child", "src/bip32/private_key.rs::PrivateKey", "src/bip32/public_key.rs::PublicKey"]}
{"id": "C91", "title": "Which child key each HMAC half gives", "statement": "Over the 2^256 values of 32 bytes: every secret key is read by from_bytes from exactly one value, and 2^256 - (n - 1) values are refused. derive_child of a secret key gives every other secret key for exactly one value, never the key itself, the error Crypto for exactly one value, and panics for 2^256 - (n - 1) values; the same for a public key. The panicking values are fewer than 2^129 of the 2^256. So child keys inherit the distribution of the HMAC.", "quantifier": "every secret key, public key and 32-byte value", "why_tests_cant": "2^256 values; the panicking ones are never met by chance", "anchors": ["src/bip32/private_key.rs::derive_child", "src/bip32/private_key.rs::from_bytes", "src/bip32/public_key.rs::derive_child"]}
{"id": "C92", "title": "Text through any formatter and writer", "statement": "Width, fill, alignment, precision, sign and zero flags do not change the text of child numbers, paths, prefixes, extended keys, phrase sizes, errors and the hexadecimal forms of mnemonics and seeds (# adds 0x); Display of a mnemonic obeys width, fill, alignment and precision. If the writer fails, nothing more is written and the call returns Err; what was written is a beginning of the text. No extended key is refused.", "quantifier": "every format specification, every fmt::Write and every point at which it fails, every value", "why_tests_cant": "specifications, writers and failure points cannot be enumerated", "anchors": ["src/bip32/child_number.rs::Display", "src/bip32/derivation_path.rs::Display", "src/bip32/prefix.rs::Display", "src/bip32/extended_key/mod.rs::Display", "src/bip32/error.rs::Display", "src/bip39/mnemonic.rs::Display", "src/bip39/mnemonic.rs::LowerHex", "src/bip39/seed.rs::UpperHex", "src/bip39/mnemonic_type.rs::Display", "src/bip39/error.rs::ErrorKind"]}
{"id": "C93", "title": "Debug through any formatter and writer", "statement": "Whatever the format flags and the writer, Debug of an extended private key makes the same writes for all keys with the same attributes. It writes the attributes, with width, fill, sign, x? and X? applied to each number. Debug of child numbers, paths, prefixes and mnemonics writes the same text as {:?} or {:#?} up to those number formats, and a failing writer gets a beginning of it.", "quantifier": "every format specification, every fmt::Write and every point at which it fails, every value", "why_tests_cant": "specifications, writers and failure points cannot be enumerated", "anchors": ["src/bip32/extended_key/extended_private_key.rs::Debug", "src/bip32/extended_key/attrs.rs::ExtendedKeyAttrs", "src/bip32/child_number.rs::ChildNumber", "src/bip32/derivation_path.rs::DerivationPath", "src/bip32/prefix.rs::Debug", "src/bip39/mnemonic.rs::Debug"]}
{"id": "C94", "title": "Mnemonics in all eight languages of the source", "statement": "The source has word lists for six languages beyond English and simplified Chinese, behind features that Cargo.toml does not declare. In a build that enables any of them, each list has 2048 distinct words in NFKD form and gives a bijection with the numbers 0 to 2047. In each language from_entropy accepts exactly the five BIP39 lengths and writes the BIP39 words. from_phrase accepts exactly the texts whose normalised words encode some entropy. Each reproduces what the other accepts. Refusals carry the error BIP39 calls for and nothing panics. Without features the results are those of the two-language program.", "quantifier": "every language, byte string and text; every hash function", "why_tests_cant": "texts and entropies cannot be enumerated, and these languages are not built by the crate's tests", "anchors": ["src/bip39/language.rs::Language", "src/bip39/language.rs::gen_wordlist", "src/bip39/mnemonic.rs::from_entropy", "src/bip39/mnemonic.rs::from_phrase", "src/bip39/langs"]}
{"id": "C95", "title": "Language codes and detection in builds with more languages", "statement": "With any of the six language features: from_language_code answers a language exactly for its code in any ASCII case, and only if it is in the build; zh-hans and zh-hant name nothing. Language::from_phrase answers English or simplified Chinese according to the first word, and nothing else. It answers None for every Italian, Japanese, Korean and Spanish mnemonic, English or None for French ones and simplified Chinese or None for traditional Chinese ones.", "quantifier": "every set of features, string and mnemonic", "why_tests_cant": "all strings and mnemonics; the builds do not exist in the crate's test runs", "anchors": ["src/bip39/language.rs::from_language_code", "src/bip39/language.rs::from_phrase"]}
{"id": "C96", "title": "Seeds in all eight languages", "statement": "In every language but simplified Chinese the seed is PBKDF2 over the UTF-8 bytes of the phrase, which is in NFKD form, as BIP39 prescribes. The phrase is the NFKD form of the words of the text it was read from, single-spaced, so composed or decomposed spelling and any white space, ideographic spaces included, give the same seed. In simplified Chinese the bytes are GB18030.", "quantifier": "every mnemonic, text, password and hash function", "why_tests_cant": "texts, passwords and mnemonics cannot be enumerated", "anchors": ["src/bip39/mnemonic.rs::as_bytes", "src/bip39/seed.rs::new", "src/bip39/mnemonic.rs::from_phrase"]}
{"id": "C97", "title": "Where prefix search is exact", "statement": "In every language get_words_by_prefix does not panic and returns a stretch of the list whose words start with the query. It returns all such words for every query in English, Italian and Korean, whose lists are in code-point order, and in no other language.", "quantifier": "every language and query; both binary_search loops that have shipped", "why_tests_cant": "queries cannot be enumerated, and only a few miss", "anchors": ["src/bip39/language.rs::get_words_by_prefix"]}
{"id": "C98", "title": "No secrets in memory given back by mnemonics and seeds", "statement": "A program that makes mnemonics from entropy or at random, copies and drops them, takes their phrases, and copies and drops seeds, gives nothing but zeros back to the allocator: no copy of a phrase, of entropy or of a seed is left in freed heap memory, in any order and number of such steps. from_entropy never has to grow the buffer of the phrase, so no old buffer is left behind.", "quantifier": "every sequence of these operations, every allocator and growth policy, every entropy, language and hash function", "why_tests_cant": "freed memory is not visible to tests, and histories and allocators cannot be enumerated", "anchors": ["src/bip39/mnemonic.rs::from_entropy", "src/bip39/mnemonic.rs::new", "src/bip39/mnemonic.rs::into_phrase", "src/bip39/util.rs::join", "src/bip39/seed.rs::drop"]}
{"id": "C99", "title": "What validate, from_phrase and Seed::new leave in memory", "statement": "Not every call wipes what it used. validate leaves the entropy of a valid phrase in memory given back to the allocator, and in any case the bits of the list words with which the phrase starts; a failing from_phrase leaves those bits as well. from_phrase leaves nearly half of the phrase, or more, as its buffer grows by doubling. Seed::new leaves the phrase, the password and the normalised password. The seed itself is in its own buffer only.", "quantifier": "every phrase, password, language, hash function and allocator (for the growing buffer: any that at most doubles and moves)", "why_tests_cant": "freed memory is not visible to tests", "anchors": ["src/bip39/mnemonic.rs::validate", "src/bip39/mnemonic.rs::from_phrase", "src/bip39/mnemonic.rs::phrase_to_entropy", "src/bip39/util.rs::join", "src/bip39/seed.rs::new"]}
{"id": "C100", "title": "Fresh mnemonics are uniformly distributed", "statement": "If the bytes of the random number generator are uniformly distributed, Mnemonic::new returns every phrase of the requested number of words that validate accepts with the same probability 2^-bits and returns nothing else; its words but the last are independent and uniform over the list. n words drawn uniformly from the list pass validate with probability 2^-(n/3).", "quantifier": "every mnemonic type, language and hash function, every random number generator with uniform output", "why_tests_cant": "a statement about distributions over up to 2^256 phrases", "anchors": ["src/bip39/mnemonic.rs::new", "src/bip39/crypto.rs::gen_random_bytes", "src/bip39/mnemonic.rs::validate"]}
{"id": "C101", "title": "How likely key derivation is to fail", "statement": "If HMAC-SHA512 gives uniformly distributed bytes, XPrv::new refuses a seed of an accepted length, and derive_child of a private or public key of depth below 255 panics, with probability exactly (2^256-n+1)/2^256, below 2^-127; derive_child of a private key returns the error Crypto with probability exactly 2^-256. Every private key other than the parent's, with every chain code, is the child with probability 2^-512. A derivation along a path of m steps that does not go below depth 255 fails with probability at most m*2^-127.", "quantifier": "every seed, key, child number and path, every distribution of hash functions with uniform output", "why_tests_cant": "probabilities of about 2^-127 over all hash functions are out of reach of any sample", "anchors": ["src/bip32/extended_key/extended_private_key.rs::new", "src/bip32/extended_key/extended_private_key.rs::derive_child", "src/bip32/extended_key/extended_public_key.rs::derive_child"]}
{"id": "C102", "title": "How often a nonce cannot be used", "statement": "Exactly two nonces k in 1..n-1 lead to r = 0: the code has no check for r = 0 and signs with them. If the first candidate of RFC 6979 is uniformly distributed, the first attempt gives r = 0 with probability 2*2^-256 (0 if the message is a multiple of n), gives no signature with probability at most 2^-127, and panics in a build with debug assertions with probability at most 2^-126. If the candidates of the first m attempts are independent and uniformly distributed, signing is not finished after m attempts with probability at most 2^(-127 m).", "quantifier": "every private key and 32-byte message, every distribution of hash functions with uniform output", "why_tests_cant": "the two nonces are not known as numbers and the events are too rare to sample", "anchors": ["src/lib.rs::ecdsa_sign"]}
{"id": "C103", "title": "Different places in the key tree have different keys", "statement": "If two pairs of a seed and a path lead to extended private keys with the same chain code, in particular to the same extended key, then they are the same pair, or two different inputs that SHA-512 is given on the way to them have digests that agree in the last 32 bytes. If two different child numbers give children of one key with the same private (or public) key, two different inputs that SHA-512 is given for them have digests that agree in the first 32 bytes. The inputs are listed, and the result depends on no other digest.", "quantifier": "every pair of seeds and paths of any length, every key and pair of child numbers, every hash function", "why_tests_cant": "all pairs of paths; no test can find or exclude a collision", "anchors": ["src/bip32/extended_key/extended_private_key.rs::new_from_path", "src/bip32/extended_key/extended_private_key.rs::derive_child", "src/bip32/extended_key/extended_public_key.rs::derive_child"]}
{"id": "C104", "title": "Nonces are not used twice", "statement": "Two nonce candidates of ecdsa_sign are equal only for the same key, message modulo n and attempt, or if two different inputs that SHA-256 is given on the way to them have the same digest. So two signatures with the same r and the same bit 1 of the recovery id are by the same key of the same message modulo n, or two such inputs have the same digest, or one nonce is the negative of the other. The inputs are listed, and the candidate depends on no other digest. If one key did sign two messages that differ modulo n with such signatures and r is not 0, its value is a quotient of numbers known from the signatures.", "quantifier": "every pair of keys, messages, builds and attempts, every hash function", "why_tests_cant": "all pairs of keys and messages; no test can find or exclude a collision", "anchors": ["src/lib.rs::ecdsa_sign"]}
{"id": "C105", "title": "A signature belongs to one key and message", "statement": "If ecdsa_sign returns the same signature and recovery id for two pairs of a key and a message and r is not 0, the keys are equal exactly if the messages are equal modulo n; if r is 0, the messages are equal modulo n.", "quantifier": "every pair of keys, messages, builds and hash functions", "why_tests_cant": "all pairs of keys and messages", "anchors": ["src/lib.rs::ecdsa_sign"]}
{"id": "C106", "title": "Damaged text is noticed", "statement": "A text of n words of the list, n being 12, 15, 18, 21 or 24, is accepted by validate for exactly one in 2^(n/3) hash functions: if the SHA-256 of the entropy it spells is uniformly distributed, the probability is exactly 2^-(n/3). Two texts that spell the same entropy are never both accepted. A text that is the Base58 text of 78 bytes of payload and 4 bytes of checksum and begins with four letters is accepted by ExtendedKey::from_str with probability exactly 2^-32 if the double SHA-256 of the payload is uniformly distributed.", "quantifier": "every text of known words, every language and phrase length, every Base58 text of 82 bytes, every distribution of hash functions for which the digest is uniform", "why_tests_cant": "a probability over all hash functions", "anchors": ["src/bip39/mnemonic.rs::validate", "src/bip32/extended_key/mod.rs::from_str"]}
{"id": "C107", "title": "Comparisons obey the contracts of Rust's comparison traits", "statement": "For key attributes, prefixes and child numbers, ==, partial_cmp and cmp agree with each other and are a total order: a == b exactly if a.cmp(b) is Equal, partial_cmp is Some(cmp), comparisons are reflexive and dual, < is transitive, and equal values compare alike with every third. For extended public keys over any key type the same holds if and only if it holds for the key type; the key decides first, then the 41 bytes of the attributes. If keys are ordered by their bytes, extended keys are ordered by the bytes of the key followed by those of the attributes.", "quantifier": "every key type and every comparison it defines, every pair and triple of values", "why_tests_cant": "the contracts speak of all pairs and triples of values and of key types not yet written; sorting and tree maps rely on them", "anchors": ["src/bip32/extended_key/extended_public_key.rs::ExtendedPublicKey", "src/bip32/extended_key/attrs.rs::ExtendedKeyAttrs", "src/bip32/prefix.rs::Prefix", "src/bip32/child_number.rs::ChildNumber"]}
{"id": "C108", "title": "Debug text of errors and extended public keys", "statement": "Whatever the format specification and the writer, Debug of an error writes the name of the error, followed by its numbers in parentheses if it has any, and nothing else; width, fill, sign and x? apply to the numbers only. With {:?} and {:#?} the text determines the error, the cause of a signing error included. Debug of a phrase size or a language writes its name. Debug of an extended public key over any key type writes the key as its type does, then the attributes.", "quantifier": "every error with every number in it, every format specification, every writer including those that fail, every key type", "why_tests_cant": "all numbers, format flags and writers, and key types not yet written", "anchors": ["src/bip32/error.rs::Error", "src/bip39/error.rs::ErrorKind", "src/error.rs::Error", "src/bip39/mnemonic_type.rs::MnemonicType", "src/bip39/language.rs::Language", "src/bip32/extended_key/extended_public_key.rs::ExtendedPublicKey"]}
{"id": "C109", "title": "Text from outside is read in linear time", "statement": "Reading an extended key from a text takes at most one step per character and 10000 more; reading a child number or a derivation path takes at most two steps per character and two more; validating a phrase takes at most three steps per byte and 36 more. A step is one iteration of a loop, or one byte copied, wiped, compared or hashed. So no text, however long or malformed, makes the library work longer than in proportion to its length.", "quantifier": "every text, every language, every hash function", "why_tests_cant": "the worst case over all texts of all lengths; a test measures only the texts it runs, and Base58 conversion in general takes quadratic time", "anchors": ["src/bip32/extended_key/mod.rs::FromStr for ExtendedKey", "src/bip32/child_number.rs::FromStr for ChildNumber", "src/bip32/derivation_path.rs::FromStr for DerivationPath", "src/bip39/mnemonic.rs::Mnemonic::validate", "src/bip39/util.rs::BitWriter"]}
{"id": "C110", "title": "Which methods of a key implementation the library calls", "statement": "With a user's own implementation of the key traits, which may keep state, fail or panic (a hardware module, for example): deriving a hardened child calls to_bytes, derive_child, public_key and fingerprint once each, in this order; deriving a child that is not hardened never calls to_bytes of the private key; at the last level, and for a hardened child of a public key, nothing is called. The tweak handed to derive_child is the left half of BIP32's HMAC over the bytes the implementation answered. The first call that fails ends the operation, which passes its error or panic on. Along a path, to_bytes is called at most once for each hardened step, derive_child at most once for each step, from_bytes at most once. A seed of a wrong length, or a text that is not that of a key of the right kind, reaches no method. == asks only its left operand, and Debug asks neither. No operation changes the implementation's state in any other way. Along a whole path the methods called are those of its steps, one step after the other, up to the call that fails; from a public key no method of a private key is called, and a hardened step ends the walk before any method is called for it.", "quantifier": "every implementation of the traits with any state, every state, key, path, seed and text, every hash function", "why_tests_cant": "ranges over all implementations, including those that answer differently each time or fail at any call; a test has one implementation", "anchors": ["src/bip32/private_key.rs::PrivateKey", "src/bip32/public_key.rs::PublicKey", "src/bip32/extended_key/extended_private_key.rs::ExtendedPrivateKey", "src/bip32/extended_key/extended_public_key.rs::ExtendedPublicKey"]}
{"id": "C111", "title": "Different wallets share no round of PBKDF2", "statement": "The seed of a mnemonic and a passphrase is the exclusive or of 2048 rounds of HMAC-SHA512. If two mnemonics that can be obtained, each with a passphrase, agree in any one of these rounds, then they are the same mnemonic and the passphrases have the same NFKD form; or two different inputs that SHA-512 is given in the rounds up to that one have the same digest; or the digest of one phrase, which has more than 128 bytes, is the other phrase followed by zero bytes (HMAC replaces a key longer than a block by its digest).", "quantifier": "every pair of obtainable mnemonics of both languages, every pair of passphrases, every round, every hash function", "why_tests_cant": "all pairs of mnemonics and passphrases; no test can find or exclude a collision", "anchors": ["src/bip39/seed.rs::Seed", "src/bip39/mnemonic.rs::as_bytes"]}
{"id": "C112", "title": "How often a seed is asked for its bytes", "statement": "XPrv::new and new_from_path take any type that implements AsRef<[u8]>, and a caller's own type may keep state, answer differently each time, or panic. It is asked once or twice. A panic is passed on. If the first answer does not have 16, 32, 64 or 128 bytes, the result is SeedLength and the seed is not asked again. Otherwise the key is BIP32's master key of the second answer, or Crypto if there is none, whatever the length of that answer: the check of the length does not bind a type whose answers differ. A path does not lead to further questions. For a type that always gives the same answer, this is the function of the bytes of which the other properties speak.", "quantifier": "every implementation of AsRef<[u8]> with any state, every state and path, every hash function", "why_tests_cant": "ranges over all types that a caller may define; the tests use arrays and Seed", "anchors": ["src/bip32/extended_key/extended_private_key.rs::new", "src/bip32/extended_key/extended_private_key.rs::new_from_path"]}
{"id": "C113", "title": "Reading phrases and passphrases takes time n log n", "statement": "The NFKD form of a text has at least as many characters, at most 18 times as many, and at most 11 times as many bytes; both factors are reached by texts of every length. If sorting k elements takes O(k log k) steps, as the standard library documents, Mnemonic::from_phrase takes O(N log N) steps for any text of N bytes, accepted or not, and Seed::new O(N log N) for a passphrase of N bytes besides a fixed number for the 2048 rounds and two for each byte of the phrase. The bounds are explicit.", "quantifier": "every text, of any length and with any combining marks, every mnemonic and passphrase, every hash function, every cost of sorting with the documented bound", "why_tests_cant": "all texts, including those made to exhaust the reader; a test measures single texts", "anchors": ["src/bip39/mnemonic.rs::from_phrase", "src/bip39/util.rs::join", "src/bip39/seed.rs::Seed", "src/bip39/crypto.rs::pbkdf2"]}
{"id": "C114", "title": "A path keeps what an iterator gave it", "statement": "extend on a derivation path takes any iterator, and a caller's own may keep state, never end, misstate how many numbers are left, or panic. Whatever it does, the path afterwards is the old path followed by numbers the iterator gave, in that order, and nothing else. All of them, if the iterator ended or its next panicked; all but the last, if size_hint panicked or claims more than a vector can hold. extend returns only when the iterator has ended. With an iterator of the standard library of certain length, the path has all the numbers given, also after a panic. A list of numbers is appended as the other properties say.", "quantifier": "every iterator with any state, every path, every way in which the vector grows, any number of calls", "why_tests_cant": "ranges over all iterators a caller may define and over every point at which they may panic; the tests do not extend paths", "anchors": ["src/bip32/derivation_path.rs::extend"]}
{"id": "C115", "title": "What operations on private keys leave in their arrays", "statement": "Equality of extended private keys leaves zeros in the copies of the key that it makes. Reading a text that is an extended key leaves zeros and the chain code. But to_string, although its result is wiped when dropped, leaves the private key and the whole text in arrays that it does not wipe; new leaves the master key and its chain code; derive_child leaves BIP32's I, which with the key of the child gives the key of the parent, and for a hardened child the key of the parent itself.", "quantifier": "every key, prefix, text, seed and child number, every hash function", "why_tests_cant": "concerns the contents of memory after every call, for all keys; a test sees results only", "anchors": ["src/bip32/extended_key/extended_private_key.rs::to_string", "src/bip32/extended_key/extended_private_key.rs::ct_eq", "src/bip32/extended_key/extended_private_key.rs::derive_child", "src/bip32/extended_key/extended_private_key.rs::new", "src/bip32/extended_key/mod.rs::fmt", "src/bip32/extended_key/mod.rs::drop"]}
{"id": "C116", "title": "Calls from several threads act as if alone", "statement": "Several threads may call Mnemonic::new, from_entropy, from_phrase, validate, Language::from_phrase, wordlist and wordmap at the same time, in any of the languages, while no word list has been built yet, each thread choosing its next call by the answers it has had. Whatever the order of their steps, each thread ends with the result it has when it runs alone; no call panics or blocks for ever because of another one; each list and map is built at most once; and the number of steps is at most 16 per call.", "quantifier": "every number of threads, every adaptive program of calls in each of them, every schedule, debug and release builds", "why_tests_cant": "ranges over all interleavings and over all programs of calls; a test runs a few schedules the machine happens to choose", "anchors": ["src/bip39/language.rs::lazy", "src/bip39/language.rs::from_phrase", "src/bip39/mnemonic.rs::from_entropy_unchecked", "src/bip39/mnemonic.rs::phrase_to_entropy"]}
{"id": "C117", "title": "Comparing and deriving private keys shows nothing of the keys", "statement": "Comparing two extended private keys with == takes the same branches and touches the same memory whatever the keys and whether they are equal, in builds with and without debug assertions (provided to_bytes of the key type does), and no assertion of the constant-time types fails. derive_child shows nothing of the key but its depth and the kind of outcome (provided the methods of the key type do not): two keys of one depth look alike for every child number for which both succeed, both give the same error or both panic; and so do successful derivations along a path. In contrast, the derived == of key attributes shows which field differs first.", "quantifier": "every key type, every two pairs of keys, every child number, path and hash function, debug and release builds", "why_tests_cant": "compares the control flow and memory accesses of all pairs of executions; measuring time on samples cannot show that they agree", "anchors": ["src/bip32/extended_key/extended_private_key.rs::ct_eq", "src/bip32/extended_key/extended_private_key.rs::eq", "src/bip32/extended_key/extended_private_key.rs::derive_child", "src/bip32/extended_key/extended_private_key.rs::derive_from_path", "src/bip32/extended_key/attrs.rs::ExtendedKeyAttrs"]}
{"id": "C118", "title": "Word lists and maps are built on demand only", "statement": "When threads call the functions that read word lists in any interleaving, a word list or map is built only if a call needs it: at every point what has been built, or begun, is needed by some thread's calls, by the time a thread has ended what its calls need has been built, and in the end each list and map has been built once if a call needed it and never otherwise. A map needs its list; making a mnemonic from entropy of an accepted size needs the list only; entropy of a refused size needs nothing; reading or validating a phrase needs map and list; finding the language of a phrase needs nothing if the phrase is blank, and the Chinese map only if the first word is not English.", "quantifier": "every number of threads, every client program of calls chosen by earlier answers, every schedule, all eight languages of the source, debug and release builds, every point of the execution", "why_tests_cant": "a test samples schedules and programs; this is about which initialisers run in all of them", "anchors": ["src/bip39/language.rs::lazy", "src/bip39/language.rs::wordlist", "src/bip39/language.rs::wordmap", "src/bip39/language.rs::from_phrase", "src/bip39/mnemonic.rs::from_entropy", "src/bip39/mnemonic.rs::from_phrase", "src/bip39/mnemonic.rs::validate"]}
{"id": "C119", "title": "What making and validating mnemonics shows", "statement": "To someone who sees which way branches go and which element of which array is read or written, making a mnemonic from entropy of an accepted size, or from drawn bytes, shows all of it: the entries of the word list that are read, in order, are the BIP39 encoding of the entropy, so different entropies look different. Nothing else depends on the entropy: apart from these reads and the writing of words of different lengths, all entropies of one length look the same. Validating a phrase shows no more than how many pieces it has and how many bytes each has, what looking each piece up shows, which pieces are in the list and whether the phrase is valid.", "quantifier": "every entropy of an accepted size, every drawn string, both languages, every hash function, every phrase, whatever one lookup shows", "why_tests_cant": "a test measures time on samples; this is about all pairs of inputs", "anchors": ["src/bip39/mnemonic.rs::new", "src/bip39/mnemonic.rs::from_entropy", "src/bip39/mnemonic.rs::validate", "src/bip39/mnemonic.rs::phrase_to_entropy", "src/bip39/util.rs::BitIter::next", "src/bip39/util.rs::BitWriter::push", "src/bip39/language.rs::get_word"]}
{"id": "C120", "title": "What writing and reading key text shows", "statement": "To someone who sees which way branches go and which element of which array is read or written, writing an extended key as text shows the whole text: the entries of the table of 58 characters that are read spell it, so different keys or attributes look different, and two extended keys look the same exactly if their texts are the same. Reading text as an extended key shows the text too: the entries of the table of digits that are read spell the text up to where it is refused, and all of it if it is accepted. Nothing else depends on the key: apart from the reads of these tables, so also in the number of steps, writing looks the same for all extended keys with the same one of the eight usual prefixes, and reading looks the same for all accepted texts of one length that start with the same four usual letters.", "quantifier": "every extended key, every private key with any prefix, every text, every hash function", "why_tests_cant": "a test measures time on samples; this is about all pairs of keys and all texts", "anchors": ["src/bip32/extended_key/mod.rs::write_base58", "src/bip32/extended_key/mod.rs::fmt", "src/bip32/extended_key/mod.rs::from_str", "src/bip32/extended_key/extended_private_key.rs::to_string"]}
{"id": "C121", "title": "Searching words and detecting a language take few steps", "statement": "get_words_by_prefix compares the query with at most 12 words to find its place and looks at one word more than it returns, and with each of them compares at most as many characters as the word has: with a word list of the crate it takes at most 9 steps per returned word and 117 more (English), 2 and 26 (Chinese), however long the query is; on any list of at most 2^j words it compares with at most j+1 words and one more than it returns, sorted or not. Language::from_phrase takes at most three steps per byte and does not look at anything after the first word and the white space character following it.", "quantifier": "every query, every list of words, both binary searches of the standard library; every text", "why_tests_cant": "a test times some queries; the bound is for every query and list", "anchors": ["src/bip39/language.rs::get_words_by_prefix", "src/bip39/language.rs::from_phrase"]}
{"id": "C122", "title": "Conversions lose nothing", "statement": "u32::from and ChildNumber::from are inverse on every u32, and ChildNumber::from(n) is what new gives for the lower 31 bits and the top bit, what from_bytes gives for the big-endian bytes, and prints as the index with an apostrophe from 2^31 on. The items of a path's into_iter and as_ref rebuild the path, pushed one by one or given to extend. A prefix made by try_from gives its version back and that version makes the same prefix. The string made from a mnemonic, or lent by as_ref, reads back as the same mnemonic.", "quantifier": "every u32, every path of any length, every accepted version, every obtainable mnemonic, every hash function", "why_tests_cant": "tests convert a few values; the round trips are for all of them", "anchors": ["src/bip32/child_number.rs::From", "src/bip32/derivation_path.rs::into_iter", "src/bip32/derivation_path.rs::as_ref", "src/bip32/prefix.rs::From", "src/bip39/mnemonic.rs::From", "src/bip39/mnemonic.rs::as_ref"]}
{"id": "C123", "title": "Programs that use the whole interface", "statement": "Take any program that makes any calls of the public interface in any order, with any texts, bytes and numbers, on the objects it holds, catching errors and panics and dropping objects as it likes. At every point each mnemonic it holds is a BIP39 sentence with the right checksum, each seed has 64 bytes, each private key is in [1, n-1], each public key is a finite point, each prefix has four letters. Each private key is a descendant of one that a call brought in (master key of a seed, text, decoded key); each public key belongs to such a private key or is a descendant along numbers below 2^31 of one brought in; each seed is from a mnemonic brought in and a password given. So a program that never brings in a private key never holds one. A call panics exactly when it is get_word with a number of 2048 or more, from_parts_unchecked without four letters, a derivation that meets I_L = 0 or I_L >= n, or (with debug assertions) a signature that meets a nonce point with x >= n. If the program stops at any point, everything it holds, seeds apart, can be rebuilt identically from texts, languages, versions and public fields that calls give for the objects.", "quantifier": "every sequence of calls of any length, every argument, every stopping point, every hash function, both builds, both binary searches of the standard library", "why_tests_cant": "tests run a few short call sequences; the claim is an invariant of all of them", "anchors": ["src/lib.rs::ecdsa_sign", "src/bip39/mnemonic.rs::Mnemonic", "src/bip39/seed.rs::Seed", "src/bip39/language.rs::Language", "src/bip32/prefix.rs::Prefix", "src/bip32/extended_key/mod.rs::ExtendedKey", "src/bip32/extended_key/extended_private_key.rs::ExtendedPrivateKey", "src/bip32/extended_key/extended_public_key.rs::ExtendedPublicKey"]}
{"id": "C124", "title": "The errors of each function, and no others", "statement": "For each public function there is an exact list of the errors it can return: every error that any program gets from it is in the list, and every error of the list is one that some program gets. from_entropy: InvalidKeysize of 8 times the length. from_phrase and validate: InvalidWord, InvalidChecksum, InvalidWordLength of a number that is not 0, 12, 15, 18, 21 or 24. get_bits: InvalidWord. The sizes: the number they were given. ChildNumber::new and from_str: ChildNumber; a path: Decode or ChildNumber. A prefix of a version or of bytes: Decode. ExtendedKey from text: Base58 or Decode; private and public keys from text: also Crypto, and from an extended key only Crypto. A master key: SeedLength or Crypto, along a path also Depth. Private derivation: Depth or Crypto; public derivation: also ChildNumber. ecdsa_sign: the input length error of libsecp256k1. All other functions return none. So a caller that matches on these handles everything, and the errors Bip39 and InvalidEntropyLength are never returned.", "quantifier": "every sequence of calls of any length, every argument, every object held, every hash function; for the converse, for every entry of the table (an infinite one, because of the numbers) some program and hash functions", "why_tests_cant": "a test shows that an error occurs; that no other does is about all inputs", "anchors": ["src/bip39/error.rs::ErrorKind", "src/bip32/error.rs::Error", "src/error.rs::Error", "src/bip39/mnemonic.rs::from_phrase", "src/bip39/mnemonic.rs::validate", "src/bip32/extended_key/extended_private_key.rs::derive_child", "src/bip32/extended_key/extended_public_key.rs::derive_child", "src/bip32/extended_key/mod.rs::from_str", "src/lib.rs::ecdsa_sign"]}
{"id": "C125", "title": "How much of a lost phrase the checksum gives back", "statement": "When the last k words of a phrase of n words are lost, exactly 2048^(k-1) times 2^(11 - n/3) ways to fill in words of the list make a phrase that validate accepts, whatever the words that are left. When anything else is lost (words at other places, their order, which of several spellings), of the texts it may have been a share of 2^-(n/3) is accepted on average, if SHA-256 behaves as uniform.", "quantifier": "every language, every phrase size, every number of lost words, all remaining words, every finite set of candidate texts, every hash function (first part) or every distribution of hash functions uniform on each entropy (second part)", "why_tests_cant": "the number of candidates is up to 2^256; a test tries a handful", "anchors": ["src/bip39/mnemonic.rs::validate", "src/bip39/mnemonic.rs::from_phrase", "src/bip39/util.rs::checksum"]}
{"id": "C126", "title": "Fresh phrases are not guessed and do not repeat", "statement": "Whoever tries a set of texts hits the phrase of a fresh mnemonic with probability at most their number times 2^-bits, and exactly that if all of them are valid phrases of the size. Two fresh mnemonics of the same size and language have the same phrase with probability exactly 2^-bits, and among k of them any two do with probability at most k(k-1)/2 times 2^-bits.", "quantifier": "every size, language, number of mnemonics and set of guesses; every source of random bytes that are uniform (and pairwise independent for different mnemonics)", "why_tests_cant": "a probability of 2^-128 cannot be observed", "anchors": ["src/bip39/mnemonic.rs::new", "src/bip39/crypto.rs::gen_random_bytes", "src/bip39/mnemonic_type.rs::entropy_bits"]}
{"id": "C127", "title": "How often keys and fingerprints repeat", "statement": "If the hash functions give uniform bytes that are independent for any two of the inputs: of m children of one key (hardened or not) two have the same private or public key with probability at most m(m-1)/2 times 2^-256, the same holds for the master keys of m seeds, and two public keys have the same fingerprint with probability exactly 2^-32. So an application may take derived keys as distinct, but must not take a fingerprint as the identity of a key.", "quantifier": "every key, number of children, choice of child numbers, seeds and public keys; every distribution of hash functions with pairwise independent uniform outputs", "why_tests_cant": "probabilities of 2^-256 cannot be observed, and distinctness has to hold for all pairs", "anchors": ["src/bip32/extended_key/extended_private_key.rs::derive_child", "src/bip32/extended_key/extended_private_key.rs::new", "src/bip32/public_key.rs::fingerprint"]}
{"id": "C128", "title": "Keys of different calls are uniform and independent", "statement": "If HMAC-SHA512 gives uniform bytes, independent for the calls made: the private keys and chain codes that any number of derive_child calls return (hardened or not, on one key or several) are jointly uniform, every combination having probability 2^-512 per call, except that a child never has its parent's key; so to someone who cannot evaluate HMAC on the inputs of these calls, the other keys say nothing about one, and all the children together, with their chain codes, say nothing about the private key of the parent except that it is none of them. (Whoever has the parent's chain code and public key can evaluate it for numbers that are not hardened, and then C65 applies.) The same holds for the places of a whole tree of paths below one key, for the points derived from public keys, and for the master keys of different seeds.", "quantifier": "every number of calls, all parent keys of depth below 255, child numbers, trees of paths, seeds of accepted lengths and possible results; every distribution of hash functions that is uniform and independent on the inputs of the calls", "why_tests_cant": "a joint distribution over 2^(512 m) outcomes cannot be observed", "anchors": ["src/bip32/extended_key/extended_private_key.rs::derive_child", "src/bip32/extended_key/extended_private_key.rs::new", "src/bip32/extended_key/extended_public_key.rs::derive_child", "src/bip32/extended_key/extended_private_key.rs::derive_from_path"]}
{"id": "C129", "title": "Phrases that can be read in two languages", "statement": "A text that from_phrase accepts in one language is refused with InvalidWord in every other language, except between English and French and between the two Chinese lists; in the build with English and simplified Chinese there is no exception, for validate as well. A text accepted in English and in French gives different entropies but the same seed for every password. A text accepted in one Chinese list gives the same phrase and entropy in the other, unless a character is missing there, which is InvalidWord; the two seeds are then made of different bytes. Phrases of both kinds exist.", "quantifier": "all strings, all pairs of the eight languages, all passwords and all hash functions", "why_tests_cant": "the number of strings, and of phrases of common words (100 words of English and French, 1275 characters of the Chinese lists), is beyond enumeration", "anchors": ["src/bip39/mnemonic.rs::from_phrase", "src/bip39/mnemonic.rs::validate", "src/bip39/language.rs::wordlist", "src/bip39/language.rs::wordmap", "src/bip39/seed.rs::new"]}
{"id": "C130", "title": "Which other signatures of a signed message verify", "statement": "If ecdsa_sign returns (r, s) and recovery id v and r is not 0, then (r, n - s) verifies for the same key and message too, with n - s above n / 2 and s not. Of all signatures with this r and this bit 1 of the recovery id, the public key is recovered from exactly two: (r, s) with v, and (r, n - s) with bit 0 of v changed. If r is at least p - n, exactly s and n - s verify with this r; less than one nonce in 2^125 gives a smaller r.", "quantifier": "every key, message, build, fuel, hash function and every other s and recovery id", "why_tests_cant": "all s below n for every key and message", "anchors": ["src/lib.rs::ecdsa_sign"]}
{"id": "C131", "title": "Signatures carry over to related keys", "statement": "Take a key and one derived from it by a path without hardened steps. From the extended public key of the first and the path a number t can be computed such that (r, s) is a signature of m' by the derived key exactly if it is a signature of m' + r t by the first, and the same for recovery. So every signature returned by ecdsa_sign with r not 0 is a signature of another 32-byte message, which the holder of that extended public key can compute, by all keys so derived from the signer and all keys the signer is so derived from; the two messages agree modulo n only if the two public keys are the same.", "quantifier": "every pair of a key and a key derived from it without hardened steps, every path, message, r, s, recovery id, build and hash function", "why_tests_cant": "all keys, paths and messages", "anchors": ["src/lib.rs::ecdsa_sign", "src/bip32/extended_key/extended_private_key.rs::derive_child", "src/bip32/extended_key/extended_public_key.rs::derive_child", "src/bip32/extended_key/extended_public_key.rs::derive_from_path"]}
{"id": "C132", "title": "Which keys a signature verifies for", "statement": "If ecdsa_sign returns (r, s) and v for the key d and the message m and r is not 0, then with v the signer's public key is recovered and no other. With bit 0 of v changed exactly one other point is recovered, d' G with r d' = -(r d + 2 m) modulo n. Without recovery id the signature verifies for these two and, if r is at least p - n, for no other point: the 64 bytes alone do not tell which of the two keys signed, the recovery id does. In every case at most four points verify a signature of a message, and at most four s verify for a key, a message and an r.", "quantifier": "every key, message, build, fuel and hash function, and every point of the curve", "why_tests_cant": "all points of the curve for every key and message", "anchors": ["src/lib.rs::ecdsa_sign"]}
{"id": "C133", "title": "A text is one kind of thing only", "statement": "No text is accepted as two of: a phrase (by from_phrase or validate, in any of the eight languages), an extended key, private or public, a child number, a derivation path, a language code. A program that is handed a text and tries the parsers in any order gets the same kind.", "quantifier": "all strings, all languages and builds, all hash functions", "why_tests_cant": "all strings", "anchors": ["src/bip39/mnemonic.rs::from_phrase", "src/bip39/mnemonic.rs::validate", "src/bip39/language.rs::from_language_code", "src/bip32/child_number.rs::from_str", "src/bip32/derivation_path.rs::from_str", "src/bip32/extended_key/mod.rs::from_str"]}
{"id": "C134", "title": "Extended keys that BIP32 calls invalid are refused", "statement": "A text that ExtendedPrivateKey::from_str or ExtendedPublicKey::from_str accepts is a valid extended key of BIP32: a version BIP32 defines for that kind of key, key bytes of that kind, a private key from 1 to n - 1 or a point of the curve, and at depth zero no parent fingerprint and no child number. Every text of a valid key is accepted. Keys made by the library and not read from a text are written as valid keys.", "quantifier": "all strings, all keys, all hash functions", "why_tests_cant": "all strings of 111 or so characters; the invalid keys of BIP32's test vector 5 are examples of each kind", "anchors": ["src/bip32/extended_key/mod.rs::from_str", "src/bip32/extended_key/extended_private_key.rs::try_from", "src/bip32/extended_key/extended_public_key.rs::try_from", "src/bip32/extended_key/extended_private_key.rs::new", "src/bip32/extended_key/extended_private_key.rs::derive_child"]}
{"id": "C135", "title": "What is derived depends on key, chain code and depth only", "statement": "Two extended keys with the same key, chain code and depth have the same children and the same result for every non-empty path, including the errors, whatever their parent fingerprints and child numbers and whatever version their text had. At another depth the same keys, chain codes, fingerprints and child numbers are derived, as long as the depth stays below 256. The first part holds for any implementation of the key traits.", "quantifier": "all extended keys, private and public, over any key type, all paths and child numbers, all hash functions", "why_tests_cant": "all keys and paths of any length", "anchors": ["src/bip32/extended_key/extended_private_key.rs::derive_child", "src/bip32/extended_key/extended_private_key.rs::derive_from_path", "src/bip32/extended_key/extended_public_key.rs::derive_child", "src/bip32/extended_key/extended_public_key.rs::derive_from_path", "src/bip32/extended_key/mod.rs::from_str"]}
{"id": "C136", "title": "Which texts mean the same path", "statement": "The texts that are read as a child number are the one that is written and that one with zeros, a plus sign, or a plus sign and zeros before it; a path's texts are m and such a text of each child number after a slash. So the written text is the only shortest one, two texts of one path differ only in plus signs and zeros, and no other mark for hardened children than the apostrophe is read.", "quantifier": "all strings, child numbers and paths", "why_tests_cant": "all strings of any length", "anchors": ["src/bip32/child_number.rs::from_str", "src/bip32/child_number.rs::fmt", "src/bip32/derivation_path.rs::from_str", "src/bip32/derivation_path.rs::fmt"]}
{"id": "C137", "title": "Path texts can be put together", "statement": "Reading a text with a slash and a part without slashes after it gives the path of the text with the child number of the part pushed, or the first error of the two. Reading a path text followed by what comes after m in another gives the two paths one after the other, is written as the two texts put together, and derives, for private keys, public keys and seeds, the key that the second path derives from the key of the first. The text of a path's parent is the path's text up to the last slash, and a path has no parent exactly when its text has no slash.", "quantifier": "all strings, all paths, all private and public keys, seeds and hash functions", "why_tests_cant": "all strings of any length", "anchors": ["src/bip32/derivation_path.rs::from_str", "src/bip32/derivation_path.rs::fmt", "src/bip32/derivation_path.rs::push", "src/bip32/derivation_path.rs::extend", "src/bip32/extended_key/extended_private_key.rs::derive_from_path", "src/bip32/derivation_path.rs::parent", "src/bip32/extended_key/extended_public_key.rs::derive_from_path"]}
