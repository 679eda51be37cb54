# A Lean 4 model of tesseract-one/Keychain.rs

The source under /repo (crates `bip39`, `secp256k1_bip32`, `keychain`, `keychain-c`) is modelled function by function as total Lean
functions; the properties of `properties.jsonl` are theorems about them.

## 1. Conventions

* `Res ε α` = `ok a | err e | panic`.  A Rust `Result<α, ε>`-returning function that may also panic maps to it;
  a plain function that may panic maps to `Option` (`none` = panic, or undefined behaviour where the comment says so).
* `&mut self` becomes an argument and a result.
* `u8/u16/u32` are `UInt8/UInt16/UInt32`; `usize` is `Nat` (`usize::MAX` is a parameter `umax` where it shows; overflow of `usize`
  arithmetic on lengths is modelled in `Model/Usize` only).
* `str` is `List Char` (`Str`); UTF-8 lengths and bytes come from Lean core's `String.utf8EncodeChar`.
* Overflow checks depend on the build, so functions that can overflow take a `Profile` (`debug`/`release`).
* `HashMap` is a list of entries with distinct keys (`NMap`); each *iteration* goes through an `Iter`, an arbitrary permutation, and
  theorems quantify over it.  Two iterations of one map may use different permutations.
* External crates are records of functions: `Hashes` (SHA-2, HMAC, PBKDF2, Keccak, RIPEMD), `Aead` (ChaCha20-Poly1305), `Secp.Curve`,
  `Cardano.Ed`, `Base64.Decoder`.  Only output lengths (and, for Base64, undoing the encoder) are part of the record.
  That the cipher opens what it sealed and that signatures verify are separate, explicit hypotheses (`AeadCorrect`,
  `EcdsaCorrect`, `EdCorrect`), shown satisfiable by concrete instances.
* `Verif/Real/*` holds the actual algorithms (SHA-2, Keccak, RIPEMD-160, HMAC, PBKDF2, ChaCha20-Poly1305, ECDSA over secp256k1, Ed25519
  with BIP32-Ed25519 derivation) as instances of these records, with the correctness hypotheses proved; C57 to C61 and C63 on are about
  the library with these instances.
  The group is Mathlib's group of points of an elliptic curve; the primes have Pratt certificates; arithmetic is on `Nat` and is
  evaluated by the kernel for known answers (FIPS/RFC examples, BIP-39, BIP-32 test vector 2, known addresses, RFC 8032 tests, a BIP32-Ed25519 vector, and the seed of one phrase through all 2048 rounds of PBKDF2).
  The hash functions and the cipher are proved equal to relations written from the documents (C82), so that no unrolled round has to be trusted.
* Randomness: an operation that may call the random source is a tree (`RM`: finished, or a call for `n` bytes and what follows).
  The source (`Rng`) is an arbitrary infinite byte stream with a read position, an arbitrary predicate saying which calls panic, and
  the poison flag of its lock.  Threads interleave at the calls (`Sys`, arbitrary schedules).
* The C layer runs over a heap of blocks with layouts (`CM`), with undefined behaviour as an outcome.  C programs are lists of
  calls and deletions over variables (`Op`, `State`).

Specifications live in their own files (`Verif/Spec/*`) and do not use helpers of the model (they share its data types); property
theorems live in `Verif/Props/*`, with a concrete non-trivial case beside each; helper lemmas in `Verif/Proofs/*`.

## 2. Properties: model and proof

| id | title | modelled by | proved by | status |
|---|---|---|---|---|
| C01 | 11-bit packing is lossless and big-endian | `bits.rs` as an 8-state machine over byte lists | invariant: bits of the buffer = bits written + padding; induction over the sequence | proved |
| C02 | Bit reader: exact bounds | the same, reader | invariant on the unread bits; induction on the number of reads | proved |
| C03 | Hex encode/decode round trip | `hex.rs` | induction on the bytes | proved |
| C04 | Hex decoding language | `hex.rs` loop with (modulus, buf) | loop invariant against a digit-pairing spec | proved |
| C05 | Entropy to mnemonic and back | `Entropy` as type + bytes, SHA-256 a parameter | from C01/C02 through bit lists | proved |
| C06 | Checksum acceptance is exact | `from_mnemonics` | checksum as bit prefix of the hash; both directions | proved |
| C07 | Supported sizes agree | `Type` tables | cases; numbers outside by `split` | proved |
| C08 | Mnemonic text round trip | dictionaries as generated data, `split(" ")` | split/join lemmas, words free of separators | proved |
| C09 | Dictionaries are bijections | the eight word lists | one kernel computation per list for distinctness; general lookup lemmas | proved |
| C10 | Mnemonic index bound | `get_unchecked` as lookup that is `none` (undefined) outside | bounds | proved |
| C11 | Mnemonic text acceptance and error order | `from_string` | independent acceptance spec; first failing word | proved |
| C12 | Seed derivation contract | `Seed` | unfolding against the written-out PBKDF2 call | proved |
| C13 | Phrase length must match the manager | `seed_from_mnemonic` | case analysis on the word count | proved |
| C14 | Phrase checksum is not checked at restore | the same | exhibits, for every phrase of words, success irrespective of checksum | proved |
| C15 | A generated phrase restores | `generate_entropy`, `mnemonic_from_entropy` | C05 + C08 + random tree | proved |
| C16 | Key path print/parse round trip | `key_path.rs`: trim, split, parse, slicing at byte offsets | decimal printing lemmas | proved |
| C17 | Key path grammar | the same | independent grammar, equivalence with it | proved |
| C18 | Hardened parts stay hardened | `hard_int` by profile | arithmetic on both builds | proved |
| C19 | When key path parsing panics | the same | exact panic condition by induction over the parts | proved |
| C20 | Network key path constructors | three `key_path.rs` | case analysis with bounds | proved |
| C21 | A key accepts exactly its network's paths | three `derive_private` gates | equivalence with a gate spec | proved |
| C22 | No path is valid for two networks | the same | coin types differ | proved |
| C23 | Extended private key serialisation | `private.rs` layout; secrets are numbers in 1..n-1 | byte-layout lemmas | proved |
| C24 | Corrupt key data is refused | `from_data` | both directions, error by error | proved |
| C25 | Derivation depth and bookkeeping | `derive` by well-founded recursion | induction on the skip chain | proved |
| C26 | Derivation follows BIP-32 | the same | against an independent BIP-32 child spec | proved |
| C27 | A soft request never yields a hardened child | the same | exact condition and a witness | proved |
| C28 | A signature verifies with the key that made it | `sign`, `verify` | lengths; with `EcdsaCorrect`/`EdCorrect` for the positive part | proved |
| C29 | Signature length gate | `verify` | case analysis on the length | proved |
| C30 | Cardano key data from a seed is always valid | Cardano `data_from_seed` | bit-mask lemmas | proved |
| C31 | Keys sit at the full path from the root | factories + keys | composition of derivations against the path from the root | proved |
| C32 | Encryption round trip | `crypt.rs` | slicing lemmas with `AeadCorrect` | proved |
| C33 | Decryption of arbitrary bytes | `decrypt` | case analysis | proved |
| C34 | Salt and nonce come from fresh randomness | `entropy.rs`, threads as interleavings of atomic draws | invariant over schedules of any length | proved |
| C35 | Wallet data serialisation round trip | JSON text, Base64, derived serde code | printer/parser round trip by induction | proved |
| C36 | Version 1 wallets load | `get_data` | reading any grammatical text of the format | proved |
| C37 | Repeated network entries | `de_key_map` | fold lemma | proved |
| C38 | Manager network set | `with_networks` | filter lemmas | proved |
| C39 | Seed size calculation | `calculate_seed_size` | fold of max/min | proved |
| C40 | A wallet made from a seed opens with the manager's networks | `manager.rs`, `keychain.rs` over arbitrary factories | file-format spec of a wallet, then opening | proved |
| C41 | The mnemonic is recoverable | the same | from C40's format lemma | proved |
| C42 | Changing the password | `change_password` | C32 + iff | proved |
| C43 | Adding a network | `add_network` | format lemma with one more key | proved |
| C44 | Wallet histories | histories of operations by any managers | induction over the history with an abstract wallet | proved |
| C45 | Keychain dispatch | `keychain.rs` | map lemmas | proved |
| C46 | A manager with fewer networks loses nothing | manager with other networks | filterMap lemmas | proved |
| C47 | Same seed, same keys | key data from seeds | determinism of the factory path | proved |
| C48 | Map iteration order never matters to success | `Iter` arguments | permutation lemmas | proved |
| C49 | C calls write exactly one output | C functions over heap and output variables | case analysis through the guard | proved |
| C50 | Panics do not cross the C boundary | the guard and `CString` conversion | exact condition for an escaping panic | proved |
| C51 | C error codes are distinct | error codes | table against an independent one | proved |
| C52 | C memory ownership | heap with layouts, histories of a C program | ownership invariant by induction over the program | proved |
| C53 | C value conversions are lossless | conversions | cases | proved |
| C54 | Random source failure | lock with poison flag | induction over the random tree, histories, schedules, C programs | proved |
| C55 | Secrets are zeroed on drop | `Drop` as writes to a memory | induction over the writes | proved |
| C56 | Generated phrases work | `generate_mnemonic` on a manager | C15 + manager | proved |
| C57 | Wallets open again with the actual cipher and hashes | `Real.hashes`, `Real.aead`: the algorithms, with known answers | C32, C40, C44 with `AeadCorrect` proved | proved |
| C58 | Bitcoin and Ethereum signatures are ECDSA over secp256k1 | `Real.Secp256k1`: Jacobian arithmetic on numbers, ECDSA | simulation of Mathlib's group of points, order of G by evaluation, Pratt certificates | proved |
| C59 | The recovery byte gives back the public key | `Spec.Secp256k1.Recovers` | algebra in ZMod n; parity of the negated point | proved |
| C60 | Different secrets have different public keys | as C58 | order of G, square roots | proved |
| C61 | Private derivation agrees with BIP-32 public derivation | `Spec.Bip32.PubChild` | C26 and additivity of multiples | proved |
| C62 | Exactly the well-formed wallets load | grammar and record forms as relations, independent of the reader | reader sound and complete for the grammar, by induction on fuel and derivations | proved |
| C63 | Cardano signatures are Ed25519 signatures | `Real.Ed25519` on Mathlib's Montgomery form; `Spec.Ed25519.Valid` | birational map to the Edwards form with its addition law (polynomial identities), order of B, square roots for the encoding | proved |
| C64 | Cardano scalars stay in range | `XPrv` derivation | bounds by induction along the path | proved |
| C65 | All keys of a Cardano account follow from its public key | `Spec.EdBip32.PubWalk` | additivity of multiples of B, C64 for the absence of overflow | proved |
| C66 | Changed wallets do not open | `Real.Chacha` on `decrypt` | 2^130 - 5 is prime (certificate), Poly1305 as a polynomial, number of roots | proved |
| C67 | Phrases in several languages | `Bip39Text`, the eight word lists | kernel check of pairwise disjointness of the lists through numeric codes; word by word along the text | proved |
| C68 | Error texts tell errors apart | `Display`, `Telling` | cancelling literals and numerals from texts; every library call's errors by cases | proved |
| C69 | Whole programs through the C interface | histories of `State.step`; `Origin`, `RealBuild` | invariant on handles along histories; C52 for kept handles, C57, C58, C63, C41 for the library calls | proved |
| C70 | Which passwords are the same | `Crypt.decrypt`, `Spec.Passwords` | HMAC blocks compared; for the converse a hash made to tell two given blocks apart | proved |
| C71 | The word lists are the published ones | the eight word lists, `Real.sha256` | SHA-256 of the lists evaluated in the kernel through an equal function on numbers | proved |
| C72 | The two forms of a public key | `pubSerialize`, `pubSerializeCompressed`, `Real.Secp256k1.decompress` | square roots by the power (p+1)/4, points given by first coordinate and parity | proved |
| C73 | Cardano signatures can be checked with the public key alone | `Real.Ed25519.decode`, `check` | square roots by the power (p-5)/8; Edwards coordinates determine the point | proved |
| C74 | ECDSA nonces | `Real.Rfc6979.nonce`, `hmacSha256`, `Spec.Rfc6979` | the states of the generator peeled off level by level; algebra modulo the group order | proved |
| C75 | No randomness is lost | `Manager.generateMnemonic`, `Crypt.encrypt`, `Rng`, `Spec.Uniform` | the phrase of the drawn bytes determines them (C05, C08, C71); counting by a bijection with the numbers below 2^size | proved |
| C76 | What the size of stored data tells | `Data.Versioned.toBytes`, `Json.write*`, `Base64.encode`, `Crypt.encrypt`, `Spec.Sizes` | length of each writer; the words' characters are checked list by list, none is escaped; over histories by C44 | proved |
| C77 | Phrases are in NFKD | `Mnemonic.seedFromMnemonic`, the word lists, `Spec.Nfkd` | kernel evaluation over all words against the tables of Unicode; C12, C13 | proved |
| C78 | When the library panics | `Fn.lib`, `Fn.call`, `Manager.keychainFromData`, `KeyPath.Path.from`, `Cardano.Key.verify`, `Spec.Panics` | call by call over the outcomes of each manager method (C19, C29, C41); whole programs by the invariant of C69 | proved |
| C79 | What one leaked secret reveals | `XPrv.derive`, `Real.Secp256k1.curve`, `Real.Ed25519.ed`, `Spec.Leaks` | inverse of the step of C26 and C64, step by step along the path; C61, C65 for the public side | proved |
| C80 | Signatures that can be changed without the key | `Real.Secp256k1.verify`, `Real.Ed25519.verify` | one multiple of G for both sides; points with equal first coordinate are opposite; C63 | proved |
| C81 | What exported key data contains | `Bitcoin.dataFromSeed`, `Ethereum.dataFromSeed`, `Cardano.dataFromSeed`, `Manager.getKeysData` | C30, C31; over histories by C44 | proved |
| C82 | The hash functions and the cipher are those of the standards | `Real.hashes`, `Real.aead`, `Crypt.encrypt`, `Crypt.decrypt`, `Seed.fromMnemonicString`, `Spec.Sha2`, `Spec.Keccak`, `Spec.Ripemd`, `Spec.Hmac`, `Spec.Chacha` | equivalence of the evaluable algorithms with relations taken from the documents: word by word through the rounds, uniqueness of padding, constants by integer roots and the shift register | proved |
| C83 | From a phrase to keys and signatures by the documents alone | `Manager.keychainDataFromMnemonic`, `Manager.keychainDataFromSeed`, `Manager.keychainFromData`, `Keychain`, `Spec.Standard` | C81, C44 and C40 for the wallet; C31, C58, C63 for the keys; C82 for the hash functions; derivation step by step against relations without records | proved |
| C84 | Which phrases have the same seed | `Mnemonic.seedFromMnemonic`, `Seed.fromMnemonicString`, `Spec.Passwords` | a hash that singles out one key block and salt (the proof of C70 with the salt as a parameter); phrases have no NUL by the character tables of C77 | proved |
| C85 | What refusals and printing tell about secrets | `Manager.*`, `CApi.*`, `Mnemonics.fromString`, `Entropy.display`, `Seed.display`, `Spec.Secrets` | decryption with a wrong password fails before anything else is done; the search for words stops at the first unknown one; hexadecimal is read back by C03 | proved |
| C86 | A wallet that goes from one C program to another | `CApi.*`, `Spec.CPrograms`, `Spec.Standard` | handing on between programs becomes a wallet history of C83; handles are traced by C69 and kept by C52; each call by C49 | proved |
| C87 | A wallet file written or read by another program | `Manager.*`, `Crypt.*`, `Data.*`, `Factory.keyDataFromSeed`, `Spec.Archive` | the stored text stays the library's own along C44's histories; C82 for the seal, C35 and C62 for the text, C83's relations for the key data, both ways by uniqueness | proved |
| C88 | Threads that share managers do not disturb each other | `Rng`, `RM`, `Manager.*`, `Spec.Conc` | an invariant of all reachable states: each call under way has followed its program on its own draws; a run alone on the bytes drawn then gives its result; the rest from C43, C44 and C87 | proved |
| C89 | Derived text forms and orders of the bip39 types | `Derived.*`, `Spec.Derived` | C62's grammar for the documents; UTF-8 keeps the order of code points by cases on the lengths of characters; big-endian digits compare as numbers, and so do the bits of C05's phrases | proved |
| C90 | Wallet files between C programs and others | `C.*`, `Manager.*`, `Spec.Archive`, `Spec.CPrograms` | C87 on the Rust side, carried to C through C49's outcomes and C86's histories of programs | proved |
| C91 | Lengths at the limits of usize | `mulUsize`, `subUsize`, `Entropy.fromSliceAt`, `Reader.sizeAt`, `mnemonicFromEntropyAt` | arithmetic modulo powers of two, C07 for the sizes and C02 for the reader; the case by lengths, without evaluating the slice | proved |
| C92 | Debug and release builds | `addU32`, `hardInt`, `parseInt`, `Path.from`, `C.*`, `Spec.Builds` | equal or a debug panic, part by part; C19 says which panic; each C call by cases, the program by induction | proved |
| C93 | A random source that repeats itself | `encrypt`, `decrypt`, `Call.prog`, `Real.Chacha` | the key stream cancels in the difference of two ciphertexts; C66's bound on the keys of Poly1305 that agree with two tags gives the tags to try; draws of a call fix the head of its blob | proved |
| C94 | Builds with different features | `allNetworks`, `Network.all`, `withNetworks`, manager operations | filtering the full list of factories; C13, C40, C41 and C43 with the sizes of C38 | proved |
| C95 | What of its words determines a phrase | the dictionaries, `Mnemonics.fromString`, `Spec.Abbrev` | abbreviations as numbers that differ modulo a number found by search, checked by the kernel; words with enough letters begin no other word; words with one place left out as numbers | proved |
| C96 | Completing a phrase | `Entropy.fromMnemonics`, `Mnemonics.fromString`, `seedFromMnemonic` | the last word split into end of the entropy and checksum (`carries_last`); counting by blocks | proved |
| C97 | What changes keep of a wallet another program wrote | `Versioned.toBytes`, `addNetwork`, `changePassword`, `Run` | the writer equals `Spec.Compact.file` (`C97_text`); histories by induction over `Run` | proved |
| C98 | One blob for two passwords | `encrypt`, `decrypt`, `Real.Chacha`, `changePassword`, `keychainFromData` | two tags as two numbers at two points: sums of chosen blocks reach every pair of values (Cauchy-Davenport); the rest from C33 and C42 | proved |
| C99 | Whose signature of what a signature is | `XPub::verify`, keys of the three networks, `Real.Secp256k1`, `Real.Ed25519` | a signature fixes the first coordinate of a point, and at most two (four) multiples of the base point have it | proved |
| C100 | The parts of a wallet are not checked against each other | `keychainFromData`, `addNetwork`, `retrieveMnemonic`, `getKeysData` | what each reads of the content (C40, C41, C43), and the writer of C97 for any content | proved |
| C101 | One value of PBKDF2 per password and salt | `Crypt.encrypt`, `Crypt.decrypt`, `Manager` operations | each operation unfolded with two hash functions; the cipher run on a blob with two keys for the case | proved |
| C102 | Copies of a wallet that went separate ways | `addNetwork`, `changePassword`, `Spec.Wallet.Run` | the histories of C44 compared in pairs; what an addition needs (C43) does not change along a history | proved |
| C103 | Dictionaries of the caller | `Model.Custom`: `Lang`, `splitBy`, `Lang.fromString`, `Lang.toText`, `Lang.mnemonicStringNew` | `Spec.Split` (pieces of a text) against the splitting loop; look-ups one by one | proved |
| C104 | Paths of the caller that answer differently each time | `Model.Live`: `Live`, `LM`, `livePrivate`, `liveKey` of each network | `Spec.Live` (log of questions and answers, checks as a relation) against the calls in the order of the code; fixed paths give `Model.Keys` | proved |
| C105 | How often salt and nonce, or a phrase, come up again | `Model.Rng`, `Model.Threads`, `Model.Crypt`, `Model.Manager` through `Props.Random.Call` | `Spec.Birthday` (adaptive callers, repeated marks); count over byte strings by induction on the calls, the drawn bytes split off (`Proofs.Birthday`); threads: the places of the draws do not depend on the bytes, union bound over pairs (`Proofs.Interleaved`) | proved |
| C106 | How many hash values give a key | `XPrv.derive`, `XPrv.fromSeed`, Cardano `keyDataFromSeed` | `Spec.KeyCount` (values by their first half); C26 and C30, counted over pairs of halves | proved |
| C107 | How many byte strings a password opens | `Model.Crypt`, `Model.Manager`, `Real.Chacha` | C33, C62; the cipher undoes itself, so that salt, nonce and content give the blob one to one; counted over pairs | proved |
| C108 | How many signatures a key accepts | `factoryOf`, `Real.Secp256k1.curve`, `Real.Ed25519.ed` | C58, C63, C99; each accepted signature belongs to one multiple of the base point, which determines it; counted over the multiples | proved |
| C109 | How many byte strings are key data | `XPrv.fromData`, `factoryOf` | C24, C30; the key data cut into a free part, the number and the checksum (Cardano: the two checked bytes and the rest), one to one; counted over the parts | proved |
| C110 | How many phrases and paths are accepted | `Entropy.fromMnemonics`, `derivePrivate` and path constructors of each network | C05 and C06 as a one-to-one map between phrases and entropies; C20 and C21, paths counted part by part | proved |
| C111 | What the text of a panic tells | `Model.PanicTexts`, `Model.CApi` | C49 and C41; the decimal texts of the bytes are read back from the text (`Proofs.ErrorTexts`) | proved |
| C112 | C variables used again | `Spec.CReuse` (variables by number, results written over them), `Model.CApi` | simulation by the programs of C52 that take a new variable for each result; what was written over is a variable there that no step touches again | proved |
| C113 | Copies of C structs | `Model.CApi`, histories of C52 | freed blocks stay freed over any history; every delete function and every function with a handle first touches such a block | proved |
| C114 | What panics print | `Model.PanicHook`, `Spec.PanicHook` (the guarded code of each function, the output of a program) | each call ends as its guarded code settles, so its panics are known from how it ends; induction over the program | proved |
| C115 | The rule for C programs is exact | histories of C52 and C112 | the ownership invariant: what the rule forbids deletes a dead text or a non-empty network list, each undefined | proved |
| C116 | A deleted phrase stays in memory but for one byte | `Model.Residue` (what dropping a `CString` writes) | texts read up to their NUL are determined by the memory; a space byte occurs only in a space | proved |

Theorems per property and notes on scope are in MANIFEST.json.  Partial: 

## 3. Trusted base

Lean's kernel (every proof is a kernel-checked term; `decide` is used with kernel evaluation only; no `native_decide`, no `bv_decide`,
no axioms of our own, no `sorry`); the axioms below; the faithfulness of the model to the source, as cited at each definition; the
assumptions on external code (section 4).

Axioms by theorem (from `#print axioms`):

* **no axioms**: C07_consistent, C12_bytes, C22_disjoint, C51_code, C53_language, C53_network, C53_path, C54_threads, C67_types
* **propext**: C07_display, C07_entropy_size, C103_case_index, C104_case, C108_share, C109_share, C110_phrase_share, C12_from_slice, C15_bad_size, C54_poisons, C82_vectors_keccak, C82_vectors_ripemd, C82_vectors_sha2, C95_least, C95_mistaken
* **propext, Quot.sound**: C01_case, C02_case, C02_overrun, C06_case, C07_complete, C07_word_count, C09_words, C101_encrypt, C103_empty, C10_lookup_defined, C10_new, C111_own, C116_text, C11_mnemonic_string, C11_pieces, C16_format, C20_ethereum, C20_ethereum_injective, C20_injective, C29_cardano, C30_seed_size, C32_empty, C32_succeeds, C33_parts, C34_alone, C38_set, C39_bounds_exist, C39_words, C45_dispatch, C45_networks, C50_builtin_quiet, C53_constants, C54_failure, C68_builtin, C71_lists, C73_vector, C77_words, C82_vectors_chacha, C82_vectors_hmac, C89_phrase_case, C91_debug, C92_constructors, C93_repeat, C94_features, C95_word
* **propext, Classical.choice, Quot.sound**: C01_pack, C01_roundtrip, C01_roundtrip_in_range, C02_read, C02_size, C03_case, C03_encode, C03_roundtrip, C04_accept, C04_language, C04_reject, C05_case, C05_roundtrip, C05_to_mnemonics, C06_error, C06_exact, C06_reencode, C06_unique, C07_case, C08_canonical, C08_injective, C08_roundtrip, C09_lookup, C09_names, C09_roundtrip, C100_add, C100_any, C100_case, C100_mixed, C100_open, C100_phrase, C101_add, C101_case, C101_change, C101_create, C101_decrypt, C101_generate, C101_one, C101_read, C102_agree, C102_case, C102_catch_up, C102_old_copy, C102_same, C103_accept, C103_case_chinese, C103_case_japanese, C103_case_overlap, C103_case_spellings, C103_cut, C103_cut_back, C103_default, C103_index, C103_refuse, C103_round, C103_spellings, C103_text, C104_any, C104_any_cardano, C104_cardano, C104_cross, C104_fixed, C104_message, C104_refused, C104_secp, C105_opening, C105_phrase, C105_rare, C105_sharp, C105_threads, C106_cardano, C106_child, C106_child_inj, C106_child_onto, C106_counts, C106_rare, C106_root, C106_values, C107_count, C107_language, C107_length, C107_passwords, C107_wallets, C108_cardano, C108_ecdsa, C109_bitcoin, C109_cardano, C109_ethereum, C109_secp, C10_case, C10_from_string, C110_constructors, C110_paths, C110_phrases, C111_retrieve, C111_reveals, C112_copies, C112_lost, C112_safe, C112_tidy, C113_copies, C113_handle, C113_stale, C114_body, C114_loud, C114_panics, C114_phrase, C114_quiet, C115_networks, C115_rule, C115_rule_reuse, C116_phrase, C11_accept, C11_no_extra_space, C11_unknown_word, C11_wrong_count, C12_case, C12_case_phrase, C12_mnemonic_string, C12_seed, C13_outcome, C13_refused, C14_accepts_all, C14_typo_accepted, C15_generate, C16_injective, C16_roundtrip, C17_accept, C17_component_unique, C17_count, C17_marker, C17_part_error, C18_hardened, C18_overflow, C18_path, C19_ascii_release, C19_panic, C20_bitcoin, C20_cardano, C20_case, C21_accepts, C21_one_error, C21_own_paths, C21_refuses, C21_testnet_refused, C22_refused_elsewhere, C23_injective, C23_roundtrip, C23_unique, C24_accepts, C24_checksum_flip, C24_no_panic, C24_refuses, C24_value, C25_depth_limit, C25_from_root, C25_step, C25_walk_depth, C26_bad_left, C26_child, C26_errors, C26_exact, C26_no_panic, C26_root, C26_zero_sum, C27_hardened_stays, C27_soft_can_harden, C27_soft_stays, C27_terminates, C28_cardano, C28_case, C28_first_64_verify, C28_own_signature_refused, C29_secp, C29_secp_no_panic, C30_case, C30_from_seed, C30_load, C31_cardano, C31_load, C31_secp, C32_roundtrip, C33_length, C33_no_panic, C33_not_enough, C33_outcome, C34_disjoint, C34_error_draws_nothing, C34_fresh, C34_manager, C34_threads, C35_base64, C35_format, C35_reads_any, C35_roundtrip, C36_manager, C36_no_version, C36_v1, C36_version, C37_last, C37_written_once, C38_new, C38_seed_size, C38_with_networks, C39_order, C39_phrases, C39_seed_size, C40_builtin, C40_from_seed, C40_from_seed_succeeds, C40_open, C40_roundtrip, C40_seed_size, C41_from_mnemonic, C41_from_mnemonic_succeeds, C41_keys_data, C41_recoverable, C41_retrieve, C42_outcome, C42_reencrypts, C42_same_wallet, C43_added, C43_outcome, C43_read_errors, C44_added_once, C44_created, C44_history, C45_new, C46_fewer_networks, C47_mnemonic, C47_seed, C48_create, C48_open_add, C49_exactly_one, C49_outcome, C50_add_unwinds, C50_delete, C50_guard, C50_no_unwind, C50_opened_quiet, C50_texts, C50_unwinds_iff, C51_distinct, C51_range, C51_through, C52_again, C52_delete, C52_deleted_handle, C52_history, C52_kept, C52_kept_history, C52_networks, C52_no_leak, C52_owned, C52_text, C53_constructors, C54_c_failure, C54_c_history, C54_c_lib, C54_c_poisoned, C54_history, C54_poisoned, C55_zeroed, C56_generated, C56_other_sizes, C56_succeeds, C57_crypt, C57_history, C57_wallet, C58_key, C58_loaded, C58_wallet, C59_recovers, C59_recovers_one, C59_signer, C60_public_keys, C60_same_public_key, C61_determined, C61_private_child, C61_private_walk, C61_public_child, C61_walk, C62_envelope, C62_json, C62_manager, C62_unambiguous, C62_v1, C62_v2, C63_encoding, C63_group, C63_loaded, C63_one_signature, C63_seed, C63_wallet, C64_loaded, C64_public_key, C64_same_public_key, C64_walk, C65_account, C65_child, C65_determined, C66_changed_tag, C66_forgery, C66_key_stream, C66_one_tag, C66_points, C67_chinese, C67_english_french, C67_one_language, C67_print, C67_seed, C67_translate, C68_dictionary, C68_inner, C68_opened, C68_panic, C68_telling, C68_text, C68_through, C69_cardano, C69_handles, C69_phrase, C69_returns, C69_secp, C70_c, C70_filled, C70_long, C70_real, C70_same, C71_determined, C71_phrase, C72_decompress, C72_forms, C72_hashes, C72_unique, C72_wallet, C73_check, C73_decode, C73_key, C73_wallet, C74_key, C74_leak, C74_no_repeat, C74_one, C74_sign, C74_vector, C75_call, C75_count, C75_phrase, C76_change, C76_hidden_history, C76_hidden_phrase, C76_hidden_seed, C76_history, C76_numbers, C76_phrase, C76_seed, C77_generated, C77_refused, C77_seed, C78_open, C78_panics, C78_programs, C79_account, C79_cardano, C79_cardano_account, C79_parent, C79_path, C80_cardano, C80_cardano_range, C80_only, C80_same, C80_twin, C81_cardano, C81_shared, C81_wallet, C82_format, C82_hmac, C82_hmac256, C82_keccak256, C82_opens, C82_pbkdf2, C82_ripemd160, C82_seals, C82_seed, C82_sha256, C82_sha512, C82_written, C83_cardano, C83_case, C83_case_phrase, C83_case_seed, C83_determined, C83_phrase, C83_secp, C83_seed, C84_case, C84_crate, C84_long, C84_same, C85_case, C85_count, C85_password, C85_password_c, C85_phrase_c, C85_printed, C85_texts, C85_word, C86_case, C86_case_phrase, C86_phrase, C86_seed, C87_cardano_data, C87_case, C87_old, C87_old_case, C87_opens, C87_plain, C87_read, C87_secp_data, C87_unambiguous, C87_written, C88_alone, C88_branches, C88_case, C88_disjoint, C88_lineage, C88_no_panic, C88_progress, C88_randomness, C88_wallet, C89_case, C89_entropy_order, C89_errors, C89_orders, C89_phrase_order, C89_string, C89_total, C89_type, C89_unvalidated, C90_case, C90_old, C90_opens, C90_shown, C90_written_phrase, C90_written_seed, C91_case, C91_mistaken, C91_reach, C91_release, C91_small, C92_case, C92_parting, C92_program, C92_text, C93_calls, C93_case, C93_forge, C93_phrases, C93_read, C93_xor, C94_add, C94_case, C94_open, C94_phrase, C95_case, C95_letter, C95_phrase, C95_spaces, C95_unspaced, C96_block, C96_case, C96_count, C96_mistakes, C96_restores, C96_words, C97_added, C97_case, C97_forgets, C97_history, C97_made, C97_password, C97_text, C98_answer, C98_case, C98_change, C98_chosen, C98_exists, C98_keys, C99_cardano, C99_cardano_messages, C99_case_shared, C99_case_twin, C99_exact, C99_hashes, C99_publics, C99_shared, C99_twin

## 4. What is modelled, what is not

Modelled, with file and lines at each definition:

| source | model |
|---|---|
| bip39/src/util/{bits,hex,securemem}.rs | `Model/Bits`, `Model/Hex`, `Bip39.zero` |
| bip39/src/bip39.rs, src/dicts/* | `Model/Bip39`, `Model/Custom` (dictionaries of the caller), `Model/Derived` (derived text forms and orders), `Model/Dictionaries` (generated from the word lists; checked by C71) |
| secp256k1_bip32/src/*.rs | `Model/Secp` |
| keychain/src/mnemonic.rs | `Model/Mnemonic` |
| keychain/src/key_path.rs, networks/*/key_path.rs | `Model/KeyPath` |
| keychain/src/{key,key_factory,network}.rs, networks/*/{key,factory}.rs, networks/mod.rs | `Model/Keys`, `Model/Live` (paths of the caller) |
| keychain/src/entropy.rs | `Model/Rng`, `Model/Threads` |
| keychain/src/crypt.rs | `Model/Crypt` |
| keychain/src/data.rs | `Model/Data`, `Model/Json`, `Model/Base64` |
| keychain/src/{error,keychain,manager}.rs | `Model/Manager`, `Model/Display` |
| keychain-c/src/*.rs | `Model/CApi` |

Not modelled:

* `Debug` output, `Clone` and `Hash`; `name()` of dictionaries is data only; `build.rs` and cbindgen.
* Time, allocation failure, stack overflow, side channels (so nothing is said about constant-time behaviour).
* What the compiler may do with memory writes that are not read again (C55 is about the source as written), and copies of secrets elsewhere in memory.
* `usize` overflow of lengths times 8 outside C91; elsewhere slices are shorter than an eighth of the address space.
* Errors of writing into a `Vec` (they cannot happen).

Assumptions about external code, taken from knowledge of the crates since their source is not in /repo:

* `serde_json` 1.0.40: compact writer; reader with 127 levels of nesting, RFC 8259 plus what the comments in `Model/Json` say;
  derived visitors skip unknown fields, refuse duplicates and accept arrays for structs.  The text of its errors is arbitrary.
* `base64` 0.10.1: the encoder is RFC 4648 with padding; of the decoder only that it undoes the encoder.
* `std`: `str::trim`, `split`, `parse::<u32>`, `Mutex` poisoning, `CString::new`, `Vec`/`Box` layouts, `catch_unwind`; for C111 the text of a
  failed `unwrap` and `Debug` of `NulError`.
* `libsecp256k1`, `ed25519-bip32`, `cryptoxide`: the records above; for C57 to C61 and C63 on, that they compute the algorithms of
  `Verif/Real` (nonces of ECDSA are arbitrary there, those of RFC 6979 in C74; a zero `r` is rejected as SEC 1 asks; which second halves of an Ed25519 signature are
  refused as too large is a parameter; verification takes the point from the secret instead of decoding the public key, the same by
  C73).  `from_bytes_verified` of `ed25519-bip32` is modelled (bit checks).

* The Unicode 14 data in `Spec/Nfkd` (ranges of characters that NFKD changes, combining classes), generated from the Unicode database
  and trusted as data (C77).

C interface: the caller's part of the contract is assumed (references valid, text arguments NUL-terminated, lengths right).
Addresses are not reused, so that a stale pointer stays recognisable.  In C52 results go into fresh variables; C112 drops that: results
are written over whatever the variables hold.  Programs keep one copy of each struct; C113 shows what happens with
others.  The payload of a panic is
arbitrary (but see C111).  There is no C header in the repository; the code table of C51 is that of keychain-c/src/error.rs.

## 5. Defects of the code that the proofs made precise

These are stated in the properties themselves; the theorems prove the behaviour as it is.

* Bitcoin/Ethereum `sign` gives 65 bytes, `verify` takes 64 only: a signature never verifies as handed out (C28).
* Cardano `verify` panics on more than 64 bytes, `from_data` on more than 96 (C29, C30).
* An encryption of empty data cannot be decrypted (C32).
* `hard_int` overflows for numbers from 2^31: panic in debug, a soft index in release (C18).
* `parse_int` panics when the last character of a part is not one byte (C19).
* `InvalidAddress` carries the change number (C20).
* Bitcoin keys refuse testnet paths although a testnet constructor exists; Bitcoin does not check the purpose (C21).
* The checksum of a phrase is not checked on restore (C14).
* `derive(0x7fffffff)` may move on to the hardened index 2^31 (C27).
* `calculate_seed_size` refuses networks whose sizes meet in one point (C39).
* A wallet made by a Cardano-only manager (96 bits) cannot get networks added by a manager with 128 bits (C43), and its phrases cannot be
  restored by one (C94).
* `lookup_word` uses `get_unchecked` on a public field (C10).
* `hex::decode` drops an odd last digit (C04).
* `delete_networks` frees with a wrong layout; `delete_string` on null or twice is undefined (C52).  So every program that gets a network
  list that is not empty leaks it or has undefined behaviour (C115).
* An error text with a NUL panics outside the guard (C50), reachable through a stored phrase with a NUL.
* Asking through C for a stored phrase with a NUL puts all bytes of the phrase into the text of a Panic error (C111); the same text goes to
  standard error unless `keychain_init_library` was called (C114).
* `delete_mnemonic_info` and `delete_string` leave all of a phrase but its first byte in the memory they free (C116), though `Entropy` and
  `Seed` are zeroed (C55).
* `MnemonicToLong` says "too short".
* Which of several errors is reported depends on hash map order (C48).
* Custom factories with a minimum that is not a BIP-39 size give a manager that cannot make phrases (C56).
* NUL characters at the end of a password of at most 128 bytes are not seen, and a password of more than 128 bytes can be replaced by
  its hash if that is text; both come from HMAC (C70).
* On 32 bits a release build takes a slice longer than 512 MiB for entropy if its length is right modulo 512 MiB (C91).
* With `generic-serialization` a `MnemonicString` is read without validation, though the type promises it (C89).
* Adding a network drops, without an error, what other programs stored beside the known fields (C97).
* A blob can be made that decrypts with two passwords; opening it tells which of two sets the password tried is in (C98).
* A key and a signature can be made that verify for two messages of choice (C99); this is ECDSA, not a defect of the code.
* Seed, phrase and keys of a wallet are not checked against each other: a wallet may show a phrase that is not that of its keys (C100).
* A custom dictionary with an empty separator can read no text, not even its own; and one that normalises spellings, as the documentation
  suggests, does not normalise the seed, since `MnemonicString::new` keeps the text it was given (C103).
* `derive_private` asks a path for each number once to check it and again to derive with it: an implementation of `KeyPath` that changes its
  answer gets keys at numbers that were not checked, with a Bitcoin key at any path from the root (C104).
* A wallet with Ethereum may be created though it cannot be opened, when m/44'/60' cannot be derived (C40).

## 6. Testing the theorems

`seeded/LOG.jsonl` records edits of the model in the way of realistic bugs, one per line: the definition, the edit, the claim it breaks,
the theorems that fail to prove (directly, or through a lemma they rest on) and the theorems tightened as a consequence.
