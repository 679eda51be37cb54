{"id": "C01", "title": "11-bit packing is lossless and big-endian", "statement": "Writing any sequence of 11-bit values with BitWriterBy11 never panics and yields the big-endian concatenation of the values' 11-bit forms, zero-padded to a whole byte; reading that buffer with BitReaderBy11 returns exactly the values written. A value above 2047 is written as its low 11 bits.", "quantifier": "every sequence of u16 values, of any length", "why_tests_cant": "2048^n value sequences for every n; the writer has eight alignment states and a fault may show only at one alignment and one bit pattern.", "anchors": ["bip39/src/util/bits.rs: BitWriterBy11::new", "bip39/src/util/bits.rs: BitWriterBy11::write", "bip39/src/util/bits.rs: BitWriterBy11::to_bytes", "bip39/src/util/bits.rs: BitReaderBy11::read", "bip39/src/util/bits.rs: State::index"]}
{"id": "C02", "title": "Bit reader: exact bounds", "statement": "BitReaderBy11::read panics exactly when fewer than 11 unread bits remain; otherwise it returns the next 11 bits of the buffer, most significant first. size() equals the number of further reads that will succeed and never underflows.", "quantifier": "every byte buffer and every number of reads already made on it", "why_tests_cant": "the boundary differs in each of eight states and for every buffer length.", "anchors": ["bip39/src/util/bits.rs: BitReaderBy11::read", "bip39/src/util/bits.rs: BitReaderBy11::size", "bip39/src/util/bits.rs: State::index"]}
{"id": "C03", "title": "Hex encode/decode round trip", "statement": "hex::encode gives two lower-case hexadecimal digits per byte, most significant first, and hex::decode of it returns the original bytes.", "quantifier": "every byte string", "why_tests_cant": "unbounded input space.", "anchors": ["bip39/src/util/hex.rs: encode", "bip39/src/util/hex.rs: decode"]}
{"id": "C04", "title": "Hex decoding language", "statement": "hex::decode accepts exactly the strings made of hexadecimal digits of either case and of space, CR, LF and TAB; white space is ignored wherever it stands; the result is the digits paired in order (an unpaired last digit is silently dropped); otherwise it fails with the byte index of the first character outside that set.", "quantifier": "every string", "why_tests_cant": "white space may stand at any position between the two digits of a byte, in strings of any length.", "anchors": ["bip39/src/util/hex.rs: decode", "bip39/src/util/hex.rs: Error::UnknownSymbol"]}
{"id": "C05", "title": "Entropy to mnemonic and back", "statement": "For every entropy of a supported size, Entropy::to_mnemonics does not panic, gives the word count of that size, every index is at most 2047, and Entropy::from_mnemonics on it returns the same entropy.", "quantifier": "every entropy value of each of the six sizes (up to 2^256 values), and every 32-byte hash function in the place of SHA-256", "why_tests_cant": "astronomically many inputs; the crate's tests use a few vectors and one random value.", "anchors": ["bip39/src/bip39.rs: Entropy::to_mnemonics", "bip39/src/bip39.rs: Entropy::from_mnemonics", "bip39/src/bip39.rs: Entropy::checksum", "bip39/src/bip39.rs: Entropy::new"]}
{"id": "C06", "title": "Checksum acceptance is exact", "statement": "For in-range indices, Entropy::from_mnemonics succeeds if and only if the last checksum_size_bits bits of the phrase are the first bits of SHA-256 of the preceding entropy bits; when it succeeds, the result re-encodes to the same phrase; when it fails the error is InvalidChecksum. So for each entropy exactly one phrase is accepted.", "quantifier": "every mnemonic phrase of each supported length", "why_tests_cant": "2048^24 phrases.", "anchors": ["bip39/src/bip39.rs: Entropy::from_mnemonics", "bip39/src/bip39.rs: Entropy::checksum", "bip39/src/bip39.rs: Type::checksum_size_bits"]}
{"id": "C07", "title": "Supported sizes agree", "statement": "The word counts accepted are exactly 9, 12, 15, 18, 21, 24 and the entropy sizes exactly 96, 128, 160, 192, 224, 256 bits; any other number is rejected with an error carrying it; for each type 11*words = entropy bits + checksum bits and checksum bits = entropy bits / 32; parsing a type's printed form returns it.", "quantifier": "every natural number as a count or size", "why_tests_cant": "all numbers.", "anchors": ["bip39/src/bip39.rs: Type::from_word_count", "bip39/src/bip39.rs: Type::from_entropy_size", "bip39/src/bip39.rs: Type::to_key_size", "bip39/src/bip39.rs: Type::checksum_size_bits", "bip39/src/bip39.rs: Type::mnemonic_count", "bip39/src/bip39.rs: Type::from_str"]}
{"id": "C08", "title": "Mnemonic text round trip", "statement": "In each of the eight languages, Mnemonics::from_string of Mnemonics::to_string returns the same indices; and if from_string accepts a text then to_string returns that very text, so no two texts give one phrase.", "quantifier": "every valid Mnemonics value, every string, all eight dictionaries", "why_tests_cant": "2048^24 phrases per language; depends on every dictionary entry being distinct and free of the separator.", "anchors": ["bip39/src/bip39.rs: Mnemonics::from_string", "bip39/src/bip39.rs: Mnemonics::to_string", "bip39/src/bip39.rs: dictionary::DefaultDictionary"]}
{"id": "C09", "title": "Dictionaries are bijections", "statement": "Each of the eight dictionaries has 2048 distinct non-empty words; lookup_word then lookup_mnemonic is the identity on 0..2047; lookup_mnemonic succeeds exactly on its words, and otherwise fails naming the word.", "quantifier": "every index and every string, all eight dictionaries", "why_tests_cant": "tests look up four English words.", "anchors": ["bip39/src/bip39.rs: DefaultDictionary::lookup_mnemonic", "bip39/src/bip39.rs: DefaultDictionary::lookup_word", "bip39/src/bip39.rs: dictionary::ENGLISH", "bip39/src/dicts/"]}
{"id": "C10", "title": "Mnemonic index bound", "statement": "MnemonicIndex::new accepts exactly 0..=2047; word lookup through an index built by it never reads outside the dictionary; every index in the phrase from_string or to_mnemonics returns is in range. (An index built directly through the public field can be out of range, and then the unchecked lookup reads out of bounds.)", "quantifier": "every u16", "why_tests_cant": "the unsafe get_unchecked access has to be in bounds on all values that reach it.", "anchors": ["bip39/src/bip39.rs: MnemonicIndex::new", "bip39/src/bip39.rs: MnemonicIndex::to_word", "bip39/src/bip39.rs: DefaultDictionary::lookup_word"]}
{"id": "C11", "title": "Mnemonic text acceptance and error order", "statement": "from_string accepts a text if and only if splitting it at every single space gives only dictionary words and their number is a supported one. On failure: the first unknown word is reported if there is one, otherwise the wrong count. In particular leading, trailing or doubled spaces are rejected. MnemonicString::new keeps the text unchanged and accepts exactly these texts.", "quantifier": "every string and every language", "why_tests_cant": "all strings.", "anchors": ["bip39/src/bip39.rs: Mnemonics::from_string", "bip39/src/bip39.rs: MnemonicString::new", "bip39/src/bip39.rs: Mnemonics::from_mnemonics"]}
{"id": "C12", "title": "Seed derivation contract", "statement": "The seed from a mnemonic text is PBKDF2-HMAC-SHA512 with 2048 iterations, keyed with the UTF-8 bytes of exactly the text the user gave, and salted with \"mnemonic\" followed by the passphrase; always 64 bytes. Seed::from_slice accepts exactly 64-byte slices and keeps the bytes.", "quantifier": "every accepted text, passphrase and byte slice", "why_tests_cant": "the canonicalised text must equal the given text for every input.", "anchors": ["bip39/src/bip39.rs: Seed::from_mnemonic_string", "bip39/src/bip39.rs: Seed::from_slice", "keychain/src/mnemonic.rs: seed_from_mnemonic"]}
{"id": "C13", "title": "Phrase length must match the manager", "statement": "A manager accepts a phrase for wallet creation only when its word count is exactly seed_size/32*3; a valid shorter one gives MnemonicToShort(count, needed), a valid longer one MnemonicToLong(count, needed).", "quantifier": "every text, language and seed size", "why_tests_cant": "all texts.", "anchors": ["keychain/src/mnemonic.rs: seed_from_mnemonic", "keychain/src/mnemonic.rs: Error::MnemonicToShort", "keychain/src/mnemonic.rs: Error::MnemonicToLong"]}
{"id": "C14", "title": "Phrase checksum is not checked at restore", "statement": "A user expects a mistyped phrase to be refused by its checksum. It is not: wallet creation from a phrase succeeds or fails irrespective of the checksum, so every sequence of the right number of dictionary words is accepted.", "quantifier": "every sequence of dictionary words of the right length", "why_tests_cant": "needs a statement about all phrases, including those whose checksum is wrong.", "anchors": ["keychain/src/mnemonic.rs: seed_from_mnemonic", "keychain/src/manager.rs: KeychainManager::keychain_data_from_mnemonic"]}
{"id": "C15", "title": "A generated phrase restores", "statement": "For every supported seed size and language, generate_mnemonic never fails or panics whatever the random source returns; the phrase carries exactly the random bytes drawn (one draw of seed_size/8 bytes) and a correct checksum; and the same manager accepts it in the same language for creating a wallet, as far as the phrase goes.", "quantifier": "every output of the random source, every language, every manager with a supported seed size", "why_tests_cant": "all random outputs.", "anchors": ["keychain/src/manager.rs: KeychainManager::generate_mnemonic", "keychain/src/mnemonic.rs: generate_entropy", "keychain/src/mnemonic.rs: mnemonic_from_entropy", "keychain/src/mnemonic.rs: seed_from_mnemonic"]}
{"id": "C16", "title": "Key path print/parse round trip", "statement": "Parsing the printed form of any key path returns the same path, in debug and release builds.", "quantifier": "all 2^160 key paths", "why_tests_cant": "2^160 values.", "anchors": ["keychain/src/key_path.rs: GenericKeyPath::from", "keychain/src/key_path.rs: GenericKeyPath::to_string", "keychain/src/key_path.rs: GenericKeyPath::print_int"]}
{"id": "C17", "title": "Key path grammar", "statement": "GenericKeyPath::from accepts a text exactly when, split at '/', it has six parts, the first trims to \"m\", and each of the others trims to an optional '+', at least one decimal digit, a value below 2^32, and an optional single \"'\" suffix; the components are those values, plus 2^31 when the suffix is present (taken mod 2^32 in release builds). Errors are reported in order: part count, marker, then the first bad part with its index.", "quantifier": "every string", "why_tests_cant": "all strings, including Unicode.", "anchors": ["keychain/src/key_path.rs: GenericKeyPath::from", "keychain/src/key_path.rs: GenericKeyPath::parse_int", "keychain/src/key_path.rs: GenericKeyPath::hard_int", "keychain/src/key_path.rs: GenericKeyPath::soft_int"]}
{"id": "C18", "title": "Hardened parts stay hardened", "statement": "A user expects a part written with \"'\" to give a hardened index (at least 2^31) or an error. This holds when the number is below 2^31; for numbers from 2^31 up the debug build panics and the release build silently returns the non-hardened index number - 2^31.", "quantifier": "every number in a hardened part, both build profiles", "why_tests_cant": "only specific ranges show it.", "anchors": ["keychain/src/key_path.rs: GenericKeyPath::hard_int"]}
{"id": "C19", "title": "When key path parsing panics", "statement": "A user expects from() to return an error on bad text, never to panic. It panics exactly when the parts before are fine and either a part's last character is not one byte in UTF-8, or (debug builds) a hardened number is 2^31 or more. On ASCII text in release builds it never panics.", "quantifier": "every string and both build profiles", "why_tests_cant": "all strings.", "anchors": ["keychain/src/key_path.rs: GenericKeyPath::parse_int", "keychain/src/key_path.rs: GenericKeyPath::hard_int"]}
{"id": "C20", "title": "Network key path constructors", "statement": "The Cardano, Ethereum and Bitcoin key path constructors accept exactly account < 2^31, change in {0,1}, address < 2^31 (where they take them), never overflow, and give hardened purpose, coin and account and soft change and address; different arguments give different paths (per constructor). Rejections name the offending component, checked in the order account, change, address. (For the address the error wrongly carries the change value.)", "quantifier": "every u32 triple and testnet flag", "why_tests_cant": "2^96 arguments.", "anchors": ["keychain/src/networks/cardano/key_path.rs: KeyPath::new", "keychain/src/networks/ethereum/key_path.rs: KeyPath::new", "keychain/src/networks/ethereum/key_path.rs: KeyPath::new_metamask", "keychain/src/networks/bitcoin/key_path.rs: KeyPath::bip44", "keychain/src/networks/bitcoin/key_path.rs: KeyPath::bip49", "keychain/src/networks/bitcoin/key_path.rs: KeyPath::bip84", "keychain/src/networks/bitcoin/key_path.rs: KeyPath::is_valid"]}
{"id": "C21", "title": "A key accepts exactly its network's paths", "statement": "pub_key, sign and verify of a network's key refuse a path with a key path error unless coin is the network's, account hardened, change 0 or 1, address soft and (Ethereum, Cardano) purpose is 44'; they never refuse such a path with a key path error; the first failing check in the order purpose, coin, account, change, address is reported. Every path from the network's own constructor is accepted, except Bitcoin testnet paths, which the only Bitcoin key refuses.", "quantifier": "every path (2^160), every key", "why_tests_cant": "2^160 paths.", "anchors": ["keychain/src/networks/cardano/key.rs: Key::derive_private", "keychain/src/networks/ethereum/key.rs: Key::derive_private", "keychain/src/networks/bitcoin/key.rs: Key::derive_private"]}
{"id": "C22", "title": "No path is valid for two networks", "statement": "A path accepted by the key of one network is refused by the keys of the other two.", "quantifier": "every path and pair of networks", "why_tests_cant": "2^160 paths.", "anchors": ["keychain/src/networks/cardano/key.rs: Key::derive_private", "keychain/src/networks/ethereum/key.rs: Key::derive_private", "keychain/src/networks/bitcoin/key.rs: Key::derive_private"]}
{"id": "C23", "title": "Extended private key serialisation", "statement": "XPrv::serialize always gives 77 bytes, XPrv::from_data of it returns the same key (secret, chain code, fingerprint, depth, index), and from_data accepts no other byte string for that key.", "quantifier": "every extended private key, every byte string, any 32-byte hash in place of SHA-256", "why_tests_cant": "unbounded.", "anchors": ["secp256k1_bip32/src/private.rs: XPrv::serialize", "secp256k1_bip32/src/private.rs: XPrv::from_data"]}
{"id": "C24", "title": "Corrupt key data is refused", "statement": "XPrv::from_data never panics and succeeds if and only if the data is 77 bytes, its last four bytes are the first four of double SHA-256 of the first 73, and the secret is in 1..n-1; otherwise the error is InvalidDataSize(len, 77), or InvalidSecretKey.", "quantifier": "every byte string", "why_tests_cant": "all byte strings.", "anchors": ["secp256k1_bip32/src/private.rs: XPrv::from_data", "secp256k1_bip32/src/private.rs: data_layout"]}
{"id": "C25", "title": "Derivation depth and bookkeeping", "statement": "A successful derive increases depth by exactly one, records the parent's fingerprint and an index not below the one asked for, and keeps the secret in 1..n-1; at depth 255 derive fails with DeriveDepthTooBig; deriving along k steps from the seed's root gives depth k and is impossible for k > 255.", "quantifier": "every key, index and sequence of steps", "why_tests_cant": "depth must never wrap for any path length.", "anchors": ["secp256k1_bip32/src/private.rs: XPrv::derive", "secp256k1_bip32/src/private.rs: XPrv::from_seed"]}
{"id": "C26", "title": "Derivation follows BIP-32", "statement": "When the left half I_L of HMAC-SHA512 is in 1..n-1 and the sum with the parent secret is non-zero mod n, derive(i) gives the BIP-32 child: secret (I_L + k) mod n, chain code I_R, where the HMAC input is 00||k||i for hardened i and the compressed public key||i for others, keyed with the chain code. If the sum is zero it proceeds with i+1. (BIP-32 also proceeds with i+1 when I_L >= n; this code fails with InvalidSecretKey, also for I_L = 0.)", "quantifier": "every key and index, any HMAC and curve", "why_tests_cant": "all keys; the edge cases have probability 2^-127 and never occur in tests.", "anchors": ["secp256k1_bip32/src/private.rs: XPrv::derive"]}
{"id": "C27", "title": "A soft request never yields a hardened child", "statement": "A user expects deriving a non-hardened index to give a non-hardened child. It does for requests whose zero-sum skip chain ends below 2^31, but derive(0x7fffffff) with a zero sum proceeds to 0x80000000, a hardened child; hardened requests never wrap to soft ones, and derive terminates on every input.", "quantifier": "every key and index", "why_tests_cant": "unreachable by random testing.", "anchors": ["secp256k1_bip32/src/private.rs: XPrv::derive"]}
{"id": "C28", "title": "A signature verifies with the key that made it", "statement": "A user expects verify(data, sign(data)) to be Ok(true). For Bitcoin and Ethereum it is always an error: sign returns 65 bytes (r, s, recovery id 0 or 1), verify takes only 64 and fails with InvalidSignatureSize(65, 64). The first 64 bytes of the signature do verify. For Cardano verify(data, sign(data)) is Ok(true).", "quantifier": "every key, path and message (assuming ECDSA and EdDSA correctness of the libraries)", "why_tests_cant": "all keys and messages.", "anchors": ["secp256k1_bip32/src/private.rs: XPrv::sign", "secp256k1_bip32/src/public.rs: XPub::verify", "keychain/src/networks/cardano/key.rs: Key::verify", "keychain/src/networks/cardano/key.rs: Key::sign"]}
{"id": "C29", "title": "Signature length gate", "statement": "Bitcoin and Ethereum verify fail with InvalidSignatureSize for every signature whose length is not 64 and never panic on length. Cardano verify fails with InvalidSignatureSize(len, 64) below 64, but panics above 64.", "quantifier": "every signature and path", "why_tests_cant": "all lengths.", "anchors": ["secp256k1_bip32/src/public.rs: XPub::verify", "keychain/src/networks/cardano/key.rs: Key::verify"]}
{"id": "C30", "title": "Cardano key data from a seed is always valid", "statement": "Cardano key data made from any 64-byte seed is 96 bytes, passes the clamping check, and loads; it never fails. Loading fails with InvalidKeySize below 96 bytes but panics above 96.", "quantifier": "every seed, every 64-byte hash in place of SHA-512, every byte string for loading", "why_tests_cant": "2^512 seeds.", "anchors": ["keychain/src/networks/cardano/key.rs: Key::data_from_seed", "keychain/src/networks/cardano/key.rs: Key::from_data"]}
{"id": "C31", "title": "Keys sit at the full path from the root", "statement": "pub_key, sign and verify of each network use the key at the full path purpose/coin/account/change/address from the root made from the seed, in that order, although Ethereum and Cardano pre-derive the first two steps at load time.", "quantifier": "every seed, path and message", "why_tests_cant": "all seeds and paths.", "anchors": ["keychain/src/networks/ethereum/key.rs: Key::from_data", "keychain/src/networks/ethereum/key.rs: Key::derive_private", "keychain/src/networks/cardano/key.rs: Key::from_data", "keychain/src/networks/cardano/key.rs: Key::derive_private", "keychain/src/networks/bitcoin/key.rs: Key::derive_private"]}
{"id": "C32", "title": "Encryption round trip", "statement": "decrypt(encrypt(d, p), p) = d for every non-empty d, every password and every random output; the blob is exactly 60 bytes longer than d. An encrypted empty string cannot be decrypted (NotEnoughData).", "quantifier": "every data, password and random output (AEAD assumed correct)", "why_tests_cant": "unbounded.", "anchors": ["keychain/src/crypt.rs: encrypt", "keychain/src/crypt.rs: decrypt"]}
{"id": "C33", "title": "Decryption of arbitrary bytes", "statement": "decrypt never panics; it fails with NotEnoughData exactly on inputs of at most 60 bytes; otherwise it succeeds exactly when the authenticated cipher accepts (bytes 60.., tag 44..60) under the key PBKDF2(password, bytes 0..32) and nonce 32..44, and the plaintext is 60 bytes shorter.", "quantifier": "every byte string and password", "why_tests_cant": "all byte strings.", "anchors": ["keychain/src/crypt.rs: decrypt", "keychain/src/crypt.rs: password_encryption_parameter"]}
{"id": "C34", "title": "Salt and nonce come from fresh randomness", "statement": "Every encryption draws 32 bytes of salt and then 12 of nonce from the random source, and no byte of the source is used twice, over any history of operations on a manager and any interleaving of threads sharing it.", "quantifier": "every history of operations and every schedule of threads", "why_tests_cant": "all histories and interleavings.", "anchors": ["keychain/src/crypt.rs: encrypt", "keychain/src/entropy.rs: OsEntropy::fill_bytes", "keychain/src/mnemonic.rs: generate_entropy"]}
{"id": "C35", "title": "Wallet data serialisation round trip", "statement": "Wallet data (seed, mnemonic, dictionary, keys) written in the version 2 format and read back is the same, whatever order the hash map is iterated in and whatever characters the mnemonic has.", "quantifier": "every wallet value and map iteration order", "why_tests_cant": "unbounded.", "anchors": ["keychain/src/data.rs: VersionedData::new", "keychain/src/data.rs: VersionedData::to_bytes", "keychain/src/data.rs: VersionedData::from_bytes", "keychain/src/data.rs: VersionedData::get_data", "keychain/src/data.rs: serialize::se_key_map", "keychain/src/data.rs: serialize::de_key_map", "keychain/src/data.rs: serialize::se_opt_vec", "keychain/src/data.rs: serialize::de_opt_vec"]}
{"id": "C36", "title": "Version 1 wallets load", "statement": "Version 1 data loads with exactly its keys and with no seed, mnemonic or dictionary; so it opens, while add_network and retrieve_mnemonic give SeedIsNotSaved. Any version other than 1 and 2 is a data error.", "quantifier": "every version 1 wallet and every version number", "why_tests_cant": "all wallets.", "anchors": ["keychain/src/data.rs: WalletDataV2::from_v1", "keychain/src/data.rs: VersionedData::get_data", "keychain/src/data.rs: Version"]}
{"id": "C37", "title": "Repeated network entries", "statement": "When stored key data lists one network more than once, the last entry is the one used; serialisation never produces a repeated entry.", "quantifier": "every stored key list", "why_tests_cant": "all lists.", "anchors": ["keychain/src/data.rs: serialize::de_key_map", "keychain/src/data.rs: serialize::se_key_map"]}
{"id": "C38", "title": "Manager network set", "statement": "with_networks gives a manager that supports exactly those of the requested networks that are built in; unknown and repeated requests have no effect; order is irrelevant; an empty intersection is refused with CantCalculateSeedSize. new() supports all built-in networks.", "quantifier": "every list of networks and every feature set", "why_tests_cant": "all lists.", "anchors": ["keychain/src/manager.rs: KeychainManager::with_networks", "keychain/src/manager.rs: KeychainManager::new", "keychain/src/manager.rs: KeychainManager::has_network", "keychain/src/networks/mod.rs: all_networks", "keychain/src/network.rs: Network::all"]}
{"id": "C39", "title": "Seed size calculation", "statement": "A manager is built exactly when the largest minimum over its factories is non-zero and strictly below the smallest maximum, its seed size is then that largest minimum, which every factory admits; otherwise CantCalculateSeedSize(min, max). Its phrases have a number of words between the min_words and max_words of every factory, which are the numbers BIP-39 has for the sizes. It does not depend on the factories' order. (Equal bounds, although satisfiable, are refused.)", "quantifier": "every list of factories", "why_tests_cant": "all lists.", "anchors": ["keychain/src/manager.rs: KeychainManager::calculate_seed_size", "keychain/src/key_factory.rs: SeedSize", "keychain/src/key_factory.rs: SeedSize::min_words", "keychain/src/key_factory.rs: SeedSize::max_words"]}
{"id": "C40", "title": "A wallet made from a seed opens with the manager's networks", "statement": "If keychain_data_from_seed succeeds, then opening the blob with the same password (by a manager with the same networks) gives a keychain whose networks are exactly the manager's, each with the key its factory makes from that seed, unless a factory refuses to load its own data, in which case the error names that network. A seed that is not 64 bytes is refused with InvalidSeedSize(len).", "quantifier": "every seed, password, factory set, random output and map order", "why_tests_cant": "unbounded.", "anchors": ["keychain/src/manager.rs: KeychainManager::keychain_data_from_seed", "keychain/src/manager.rs: KeychainManager::keychain_from_data", "keychain/src/manager.rs: KeychainManager::new_keychain_data", "keychain/src/manager.rs: KeychainManager::seed_from_data"]}
{"id": "C41", "title": "The mnemonic is recoverable", "statement": "retrieve_mnemonic on a wallet made from a mnemonic returns exactly that text and language with the right password; on a wallet made from a seed it gives SeedIsNotSaved.", "quantifier": "every accepted text, language, password and random output", "why_tests_cant": "unbounded.", "anchors": ["keychain/src/manager.rs: KeychainManager::retrieve_mnemonic", "keychain/src/manager.rs: KeychainManager::keychain_data_from_mnemonic"]}
{"id": "C42", "title": "Changing the password", "statement": "change_password succeeds exactly when the old password decrypts the blob; the new blob decrypts with the new password to the same plaintext, so opens to the same wallet, by any manager; on failure the error is WrongPassword or NotEnoughData. It does not check that the content is a wallet.", "quantifier": "every blob, passwords and random output", "why_tests_cant": "unbounded.", "anchors": ["keychain/src/manager.rs: KeychainManager::change_password"]}
{"id": "C43", "title": "Adding a network", "statement": "add_network succeeds only if the network is supported and absent and a seed or mnemonic is stored; the result holds the same seed, mnemonic, language and keys plus exactly one key, equal to the key a new wallet from that seed would have. Errors are reported in the order: not supported, decrypt/data error, already exists, seed not saved or not usable, key error.", "quantifier": "every blob, network, password, random output and map order", "why_tests_cant": "unbounded.", "anchors": ["keychain/src/manager.rs: KeychainManager::add_network"]}
{"id": "C44", "title": "Wallet histories", "statement": "After creation and any sequence of change_password, add_network and failed calls, by any managers, the latest blob opens with the latest password to: the same stored seed or mnemonic, the keys of the creation networks and of all networks added since, each derived from the original seed; no key is ever lost or altered.", "quantifier": "every finite history", "why_tests_cant": "all histories.", "anchors": ["keychain/src/manager.rs: KeychainManager::change_password", "keychain/src/manager.rs: KeychainManager::add_network", "keychain/src/manager.rs: KeychainManager::new_keychain_data"]}
{"id": "C45", "title": "Keychain dispatch", "statement": "A keychain operation on a network it has no key for fails with KeyDoesNotExist(that network); otherwise its result is that of that network's key and any error is tagged with that network. networks() lists each network of the keychain exactly once, and has_network agrees with it.", "quantifier": "every keychain, network, path and data", "why_tests_cant": "all inputs.", "anchors": ["keychain/src/keychain.rs: Keychain::new", "keychain/src/keychain.rs: Keychain::pub_key", "keychain/src/keychain.rs: Keychain::sign", "keychain/src/keychain.rs: Keychain::verify", "keychain/src/keychain.rs: Keychain::networks", "keychain/src/keychain.rs: Keychain::has_network"]}
{"id": "C46", "title": "A manager with fewer networks loses nothing", "statement": "Opening a wallet with a manager that lacks some of its networks gives a keychain with exactly the common networks; change_password and add_network by such a manager keep the keys of the networks it lacks.", "quantifier": "every wallet and manager", "why_tests_cant": "all.", "anchors": ["keychain/src/manager.rs: KeychainManager::keychain_from_data", "keychain/src/manager.rs: KeychainManager::add_network"]}
{"id": "C47", "title": "Same seed, same keys", "statement": "Wallets made from the same seed, or from the same mnemonic and language, by any two managers that accept it and agree on a factory, at any time, with any passwords and random outputs, hold the same key for that network.", "quantifier": "every pair of wallets", "why_tests_cant": "all pairs.", "anchors": ["keychain/src/manager.rs: KeychainManager::new_keychain_data"]}
{"id": "C48", "title": "Map iteration order never matters to success", "statement": "Whether keychain_data_from_* , keychain_from_data and add_network succeed, and the resulting set of keys, do not depend on hash map iteration order; only the choice among several errors and the order of returned lists may.", "quantifier": "every pair of iteration orders", "why_tests_cant": "the order is randomised per process; tests see a few.", "anchors": ["keychain/src/manager.rs: KeychainManager::new_keychain_data", "keychain/src/manager.rs: KeychainManager::keychain_from_data"]}
{"id": "C49", "title": "C calls write exactly one output", "statement": "Every C function that takes a value and an error pointer returns true and writes only the value, or returns false and writes only the error.", "quantifier": "every call and outcome", "why_tests_cant": "all outcomes, including panics.", "anchors": ["keychain-c/src/utils/result.rs: CResult::response", "keychain-c/src/utils/panic.rs: handle_exception_result"]}
{"id": "C50", "title": "Panics do not cross the C boundary", "statement": "A panic inside a C call is turned into false with error type Panic. This holds whenever the error text has no NUL; an error whose text contains NUL makes the conversion itself panic outside the guard.", "quantifier": "every outcome of the body and every error text", "why_tests_cant": "all texts.", "anchors": ["keychain-c/src/utils/panic.rs: handle_exception_result", "keychain-c/src/error.rs: ErrorPtr::new", "keychain-c/src/error.rs: ErrorPtr::panic", "keychain-c/src/utils/string.rs: ToCString"]}
{"id": "C51", "title": "C error codes are distinct", "statement": "Each kind of library error has its own C error code, none of which is the Panic code -1, and codes are stable 0..11.", "quantifier": "every library error", "why_tests_cant": "all errors.", "anchors": ["keychain-c/src/error.rs: ErrorType", "keychain-c/src/error.rs: ErrorPtr::error_type"]}
{"id": "C52", "title": "C memory ownership", "statement": "Every buffer handed to C is freed by its delete function exactly once, with the layout it was allocated with, and deleting the same struct again is harmless, over any sequence of calls. (Exceptions: delete_networks frees with the wrong layout unless the list is empty; delete_string on a null or already deleted pointer is undefined.)", "quantifier": "every history of calls and deletes", "why_tests_cant": "needs all histories; a mismatched layout is silent in tests.", "anchors": ["keychain-c/src/utils/data.rs: DataPtr::from", "keychain-c/src/utils/data.rs: DataPtr::free", "keychain-c/src/network.rs: NetworksPtr::free", "keychain-c/src/backup.rs: KeyBackupPtr::free", "keychain-c/src/utils/string.rs: delete_string", "keychain-c/src/error.rs: delete_error"]}
{"id": "C53", "title": "C value conversions are lossless", "statement": "Networks, key paths and languages pass through the C types unchanged: converting to C and back is the identity, the C key path constructors return the same five components as the Rust ones, the language numbers agree, and the network constants are the registered coin numbers and name the networks built in.", "quantifier": "every network, path and language", "why_tests_cant": "2^160 paths.", "anchors": ["keychain-c/src/key_path.rs: KeyPath", "keychain-c/src/network.rs: Network", "keychain-c/src/manager.rs: Language::rust"]}
{"id": "C54", "title": "Random source failure", "statement": "If the random source panics during a call, every later call on that manager that needs randomness panics too (poisoned lock), while calls that need none still work; through the C interface all of these are reported as Panic errors.", "quantifier": "every history of calls", "why_tests_cant": "needs a failing random source.", "anchors": ["keychain/src/entropy.rs: OsEntropy::fill_bytes"]}
{"id": "C55", "title": "Secrets are zeroed on drop", "statement": "Dropping an Entropy or Seed overwrites all of its bytes in memory with zero, for every size, and changes no other memory (by the source as written; that the compiler keeps the writes is trusted).", "quantifier": "every value of each size", "why_tests_cant": "compiler and memory effects aside, all lengths must be covered.", "anchors": ["bip39/src/bip39.rs: Entropy::drop", "bip39/src/bip39.rs: Seed::drop", "bip39/src/util/securemem.rs: zero"]}
{"id": "C56", "title": "Generated phrases work", "statement": "generate_mnemonic returns a phrase of the chosen language with the manager's number of words, carrying exactly the bytes drawn from the random source with a correct checksum, and the same manager then makes a wallet from it (unless a factory refuses the seed). With a seed size that is not one of BIP-39's it fails with InvalidEntropySize and draws nothing.", "quantifier": "every manager, language and random output", "why_tests_cant": "2^256 entropies and eight languages.", "anchors": ["keychain/src/manager.rs: KeychainManager::generate_mnemonic", "keychain/src/mnemonic.rs: generate_entropy", "keychain/src/mnemonic.rs: mnemonic_from_entropy"]}
{"id": "C57", "title": "Wallets open again with the actual cipher and hashes", "statement": "With ChaCha20-Poly1305, PBKDF2-HMAC-SHA512 and the other hash functions themselves in place of unknown functions: what encrypt made, decrypt opens to the same data; a wallet made from a seed by a manager of built-in networks opens with its password to exactly those networks (unless the seed has no Ethereum key); through any sequence of password changes and added networks it keeps seed, phrase and keys.", "quantifier": "every data, password, seed, random output and history; no assumption about the cipher", "why_tests_cant": "the claim without trusting the cipher needs its algebra.", "anchors": ["keychain/src/crypt.rs: encrypt", "keychain/src/crypt.rs: decrypt", "keychain/src/manager.rs: KeychainManager::keychain_data_from_seed", "keychain/src/manager.rs: KeychainManager::keychain_from_data"]}
{"id": "C58", "title": "Bitcoin and Ethereum signatures are ECDSA over secp256k1", "statement": "With the group of secp256k1 itself: the public key at a path is the uncompressed form of k G, where k is the BIP-32 secret at the path from the seed's root; verify accepts a 64-byte signature if and only if it satisfies the ECDSA equation for that point and the Keccak-256 hash of the data; every signature satisfies it, has s at most n/2, and its first 64 bytes verify, also after the wallet was encrypted and opened again.", "quantifier": "every seed, path, message, signature and choice of nonces; no assumption about ECDSA", "why_tests_cant": "needs the group law of the curve.", "anchors": ["secp256k1_bip32/src/private.rs: XPrv::sign", "secp256k1_bip32/src/private.rs: XPrv::public", "secp256k1_bip32/src/public.rs: XPub::verify", "secp256k1_bip32/src/public.rs: XPub::serialize"]}
{"id": "C59", "title": "The recovery byte gives back the public key", "statement": "From the 65 bytes of a Bitcoin or Ethereum signature and the message, the recovery procedure of SEC 1 (4.1.6) gives exactly the public key that signed: there is one point with first coordinate r and second coordinate of the parity of the last byte, and r^-1 (s R - z G) is the public key. Hence two keys with different secrets never make the same signature of a message.", "quantifier": "every key, message and choice of nonces", "why_tests_cant": "needs the group law of the curve; the case of a negated s must flip the parity.", "anchors": ["secp256k1_bip32/src/private.rs: XPrv::sign"]}
{"id": "C60", "title": "Different secrets have different public keys", "statement": "Two extended keys with the same public key, in uncompressed or compressed form, have the same secret; keys that show the same public key accept the same signatures.", "quantifier": "every pair of keys", "why_tests_cant": "2^256 secrets; needs the order of the base point.", "anchors": ["secp256k1_bip32/src/private.rs: XPrv::public", "secp256k1_bip32/src/public.rs: XPub::serialize"]}
{"id": "C61", "title": "Private derivation agrees with BIP-32 public derivation", "statement": "For a non-hardened child, the public key and chain code of derive(i) are those that BIP-32 public derivation (CKDpub) computes from the parent's public key and chain code alone, and every public child is found by derive; the same along paths, unless a step skips an index because of a zero sum.", "quantifier": "every key, index and path", "why_tests_cant": "2^31 children of every key; needs the group law.", "anchors": ["secp256k1_bip32/src/private.rs: XPrv::derive"]}
{"id": "C62", "title": "Exactly the well-formed wallets load", "statement": "A text is read as JSON if and only if it is a document of the RFC 8259 grammar with at most 127 levels of nesting, and it then stands for one value. An envelope loads if and only if it is a record, as object or array, with one version (1 or 2) and one Base64 text, unknown fields being ignored; content of version 1 or 2 loads if and only if its fields are there once, with readable keys, seed, phrase and language; a network listed twice has its last key. On data that decrypts, the manager answers DataError exactly if the content is no wallet.", "quantifier": "every byte sequence", "why_tests_cant": "all inputs of a parser, in both directions.", "anchors": ["keychain/src/data.rs: VersionedData::from_bytes", "keychain/src/data.rs: VersionedData::get_data", "keychain/src/data.rs: WalletDataV1", "keychain/src/data.rs: WalletDataV2"]}
{"id": "C63", "title": "Cardano signatures are Ed25519 signatures", "statement": "With the group of Ed25519 itself (proved to be that of RFC 8032: curve equation, addition formulas, base point, order, one encoding per point): the public key at a path is the encoding of k B followed by the chain code, where k is the BIP32-Ed25519 scalar at the path from the root; verify accepts a 64-byte signature if and only if it satisfies the equation of RFC 8032 (and passes the range check of the crate, whatever it refuses above the group order); every signature satisfies it, is below the order and verifies, also after the wallet was encrypted and opened again. Two valid signatures below the order with the same first half are equal.", "quantifier": "every seed or key data, path, message and signature; no assumption about the signature scheme", "why_tests_cant": "needs the group law of the curve.", "anchors": ["keychain/src/networks/cardano/key.rs: Key::sign", "keychain/src/networks/cardano/key.rs: Key::verify", "keychain/src/networks/cardano/key.rs: Key::pub_key"]}
{"id": "C64", "title": "Cardano scalars stay in range", "statement": "The bits demanded on loading keep the scalar of every derived key (up to 2^26 levels, so at every path) divisible by 8, between 2^254 and 2^255, without overflow of the addition. So no public key is the neutral element, all have prime order, and different scalars have different public keys; keys that show the same public key accept the same signatures.", "quantifier": "every loaded key and path", "why_tests_cant": "2^160 paths of every key; a wrong clamp shows only with rare keys.", "anchors": ["keychain/src/networks/cardano/key.rs: Key::from_data", "keychain/src/networks/cardano/key.rs: Key::derive_private"]}
{"id": "C65", "title": "All keys of a Cardano account follow from its public key", "statement": "For a soft child, the public key and chain code of derivation are those that BIP32-Ed25519 public derivation computes from the parent's public key and chain code alone, which determine them; so every public key that pub_key gives in an account follows from the account's public key and chain code.", "quantifier": "every key, account, change and address number", "why_tests_cant": "2^31 addresses of every account; needs the group law.", "anchors": ["keychain/src/networks/cardano/key.rs: Key::pub_key", "keychain/src/networks/cardano/key.rs: Key::derive_private"]}
{"id": "C66", "title": "Changed wallets do not open", "statement": "With ChaCha20-Poly1305 itself: for salt, nonce, ciphertext and password exactly one tag is accepted. A blob and a different one with the same salt and nonce open with the same password only if the secret point of Poly1305 (one of 2^106, determined by password, salt and nonce) is one of at most 8(L/16 + 2) that the two blobs determine, L being the longer ciphertext. If both open, the data differ exactly where the ciphertexts differ.", "quantifier": "every pair of blobs and every password", "why_tests_cant": "2^128 tags and all ciphertexts; needs that a polynomial over a field has few roots.", "anchors": ["keychain/src/crypt.rs: decrypt"]}
{"id": "C67", "title": "Phrases in several languages", "statement": "A phrase can be written in every other of the eight languages and reads back there as the same phrase, so with the same entropy. One text is a phrase in two different languages only for English and French, and for the two Chinese languages. In both Chinese languages it is then the same phrase; in English and French it is a different phrase in each, no word having the same place. Yet the seed depends on the text alone, so languages that both accept the text give the same seed. Entropy and seeds print as hexadecimal that decodes to their bytes, and equal prints mean equal values.", "quantifier": "every text and pair of languages", "why_tests_cant": "2048^24 texts per language; whether two word lists share a word, and at which place, concerns all pairs of 16384 words.", "anchors": ["bip39/src/bip39.rs: Mnemonic::from_string", "bip39/src/bip39.rs: Mnemonic::to_string", "bip39/src/bip39.rs: Entropy", "bip39/src/bip39.rs: Seed", "keychain/src/mnemonic.rs: seed_from_mnemonic"]}
{"id": "C68", "title": "Error texts tell errors apart", "statement": "The texts of two different errors of the library with the built-in networks are different, in the numbers, network, word, marker or inner error too; so when two calls through the C interface fail with the same type (other than Panic) and text, the library gave the same error. When the library panics, C reads type Panic and the panic's own text, or `Reason: Any` if it has none. (MnemonicToLong's text reads \"too short. Max:\"; it still differs from that of MnemonicToShort.)", "quantifier": "every error, call, handle and memory", "why_tests_cant": "errors carry unbounded numbers and quote arbitrary texts, nested up to three levels.", "anchors": ["keychain/src/error.rs: Error::fmt", "keychain/src/key.rs: Error::fmt", "keychain-c/src/error.rs: ErrorPtr::new", "keychain-c/src/utils/panic.rs: handle_exception_result"]}
{"id": "C69", "title": "Whole programs through the C interface", "statement": "In every history of a C program that follows the ownership rule, a live manager handle is a manager of all networks of the build and a live keychain handle is a keychain such a manager opened; so, with the built-in networks and no NUL in texts from outside, every call returns. A wallet that one program makes from a seed, any other program (also of another word size) opens with the password; its Cardano key then signs at every accepted path with a signature valid by RFC 8032 for the key of the seed, its Bitcoin and Ethereum keys with valid ECDSA signatures, and the signatures verify, all after any further calls and deletions in between. A phrase put into a wallet by one program is read back by any other as the very same bytes and language.", "quantifier": "every pair of programs (histories of calls and deletions), seed, phrase, password, message and path; with the actual algorithms", "why_tests_cant": "arbitrary interleavings of calls in two programs.", "anchors": ["keychain-c/src/manager.rs: keychain_manager_keychain_data_from_seed", "keychain-c/src/manager.rs: keychain_manager_keychain_from_data", "keychain-c/src/backup.rs: keychain_manager_retrieve_mnemonic", "keychain-c/src/keychain_c.rs: keychain_sign", "keychain-c/src/keychain_c.rs: keychain_verify"]}
{"id": "C70", "title": "Which passwords are the same", "statement": "The key of a wallet comes from the password through PBKDF2 with HMAC (RFC 8018, RFC 2104). Two passwords open the same data with the same result, whatever the hash, exactly when they are equal or differ only in NUL characters at the end and have at most 128 bytes. So two different passwords that come as C strings never coincide for all hashes. Passwords that differ only in such NULs, and a password of more than 128 bytes and the text whose bytes are its hash, may replace each other in every method of the manager; for the library this holds with SHA-512.", "quantifier": "every pair of passwords, every hash, cipher, data and state of the random generator", "why_tests_cant": "an equivalence of all pairs of passwords.", "anchors": ["keychain/src/crypt.rs: encrypt", "keychain/src/crypt.rs: decrypt", "keychain/src/manager.rs: change_password", "keychain/src/manager.rs: keychain_from_data"]}
{"id": "C71", "title": "The word lists are the published ones", "statement": "For each of the eight languages the words of the dictionary, one per line, have the SHA-256 of the word list published with BIP-39. The dictionary has 2048 different words without line ends, so that this text determines it. So the phrase made from entropy is the one of BIP-39 with a list of that SHA-256: the words at the indices that carry the entropy and its checksum, separated by single spaces; and entropy of other sizes gives none.", "quantifier": "every language, every word, every entropy and text", "why_tests_cant": "tests look at a few words of each list only.", "anchors": ["bip39/src/bip39.rs: ENGLISH", "bip39/src/bip39.rs: FRENCH", "bip39/src/bip39.rs: JAPANESE", "bip39/src/bip39.rs: KOREAN", "bip39/src/bip39.rs: CHINESE_SIMPLIFIED", "bip39/src/bip39.rs: CHINESE_TRADITIONAL", "bip39/src/bip39.rs: ITALIAN", "bip39/src/bip39.rs: SPANISH", "keychain/src/mnemonic.rs: to_dict", "keychain/src/mnemonic.rs: mnemonic_from_entropy"]}
{"id": "C72", "title": "The two forms of a public key", "statement": "The public key of a secp256k1 secret k is given out as the uncompressed (65 bytes) and the compressed (33 bytes) form of SEC 1 for the point k G. Decompression (SEC 1, 2.3.4) accepts exactly the compressed forms of points of the curve and gives the uncompressed form of the same point, so the one form given out is decompressed to the other, and every public key a Bitcoin or Ethereum key gives out comes from exactly one compressed form. sha256 and compressed_sha256 are SHA-256 of these forms, and the parent fingerprint of every derived child begins the RIPEMD-160 of the latter.", "quantifier": "every secret, every string of bytes, every key data and path", "why_tests_cant": "the square root is taken modulo a 256-bit prime.", "anchors": ["secp256k1_bip32/src/public.rs: serialize", "secp256k1_bip32/src/public.rs: serialize_compressed", "secp256k1_bip32/src/public.rs: sha256", "secp256k1_bip32/src/public.rs: compressed_sha256", "secp256k1_bip32/src/private.rs: derive", "secp256k1_bip32/src/private.rs: public"]}
{"id": "C73", "title": "Cardano signatures can be checked with the public key alone", "statement": "Reading 32 bytes as RFC 8032, 5.1.3 says gives exactly the point that they encode, and nothing when they encode none; writing the point gives the bytes again. What a loaded Cardano key accepts at a path is exactly what RFC 8032 verification accepts that is given only the 32 bytes of the public key shown at that path; what the key signs passes there, also after the wallet was encrypted and opened again.", "quantifier": "every string of 32 bytes; every key data, path, message and signature", "why_tests_cant": "square roots modulo a 255-bit prime; all signatures of all messages.", "anchors": ["keychain/src/networks/cardano/key.rs: Key::pub_key", "keychain/src/networks/cardano/key.rs: Key::sign", "keychain/src/networks/cardano/key.rs: Key::verify"]}
{"id": "C74", "title": "ECDSA nonces", "statement": "With the nonces of RFC 6979, what a loaded Bitcoin or Ethereum key signs at a path is exactly the RFC 6979 signature (lower s) of the Keccak-256 hash of the message with the secret of the public key shown there, and there is just one. A nonce occurs a second time, for another secret, another message hash or another attempt, only with two different pairs of 32-byte key and text that have the same HMAC-SHA256. Two signatures with the same nonce for different hashes would leave two candidates for the secret, computed from the signatures.", "quantifier": "every key data, path and message; every pair of secrets and hashes", "why_tests_cant": "that no nonce repeats concerns all pairs of keys and messages.", "anchors": ["secp256k1_bip32/src/private.rs: sign", "keychain/src/networks/ethereum/key.rs: Key::sign", "keychain/src/networks/bitcoin/key.rs: Key::sign"]}
{"id": "C75", "title": "No randomness is lost", "statement": "Two successful runs of a manager's call (generating a phrase, making a wallet, changing the password, adding a network) with any two random sources give the same result exactly if the bytes drawn are the same; a successful call moves the source on by exactly that many bytes. Every phrase of the manager's size in the language whose checksum is right is generated for exactly one value of the drawn bytes, every other text for none, and there are exactly 2^size such phrases: with uniform bytes all phrases are equally likely.", "quantifier": "every manager, call, pair of random sources, language and text", "why_tests_cant": "tests cannot count 2^128 phrases nor show that two draws never give one phrase.", "anchors": ["keychain/src/manager.rs: generate_mnemonic", "keychain/src/manager.rs: new_keychain_data", "keychain/src/manager.rs: change_password", "keychain/src/manager.rs: add_network", "keychain/src/mnemonic.rs: generate_entropy", "keychain/src/mnemonic.rs: mnemonic_from_entropy", "keychain/src/crypt.rs: encrypt"]}
{"id": "C76", "title": "What the size of stored data tells", "statement": "The size of an encrypted wallet is given by a closed formula: for one made from a seed by the numbers of its networks and the lengths of their keys only, for one made from a phrase also by the language and the number of bytes of the text. With the built-in networks two wallets of the same networks made from seeds have the same size whatever the seeds, passwords, random bytes and map orders (787 bytes with all three), and so have two made from phrases of equal length in one language. Changing the password never changes the size, and after any password changes and additions of networks the formula still holds, so that with the built-in networks the size does not tell how a wallet came to its networks.", "quantifier": "every manager, seed, phrase, password, random source and map order", "why_tests_cant": "equality of sizes is about all pairs of secrets.", "anchors": ["keychain/src/data.rs: VersionedData::new", "keychain/src/data.rs: to_bytes", "keychain/src/crypt.rs: encrypt", "keychain/src/manager.rs: new_keychain_data", "keychain/src/manager.rs: change_password", "keychain/src/manager.rs: add_network"]}
{"id": "C77", "title": "Phrases are in NFKD", "statement": "All words of all eight lists, and all phrases of them, are in Unicode Normalization Form KD (tables of Unicode 14). So the seed made from a phrase, without any normalisation in the program, is the one BIP-39 defines by the NFKD of the phrase; generated phrases are in NFKD; and a phrase in any other form (accented letters or Korean syllables as single characters, wide spaces) is refused with a phrase error in every language before any randomness is used.", "quantifier": "every language, phrase and manager", "why_tests_cant": "16384 words and all texts that are not normalised.", "anchors": ["keychain/src/mnemonic.rs: seed_from_mnemonic", "bip39/src/bip39.rs: Mnemonics::from_string", "bip39/src/bip39.rs: Seed::from_mnemonic_string", "keychain/src/manager.rs: keychain_data_from_mnemonic"]}
{"id": "C78", "title": "When the library panics", "statement": "The complete list of causes. With the built-in networks and a working random source, a call of the C interface other than opening a wallet panics inside the library exactly if the handle is null, a text argument is not UTF-8, the text of a path has (after good parts) a part ending in a character of more than one byte or, in a debug build, a hardened number from 2^31, or a Cardano signature of more than 64 bytes is to be verified. Opening a wallet panics only if it holds a Cardano key of more than 96 bytes and the manager knows Cardano, and then it does or another key of it is refused. So in every history of a C program an error of type Panic comes exactly from these causes, or from a result with a NUL.", "quantifier": "every call, its arguments and handles, every history of a program, both build profiles", "why_tests_cant": "the absence of any further cause concerns all inputs.", "anchors": ["keychain-c/src/utils/panic.rs: handle_exception", "keychain-c/src/utils/panic.rs: handle_exception_result", "keychain-c/src/manager.rs: keychain_manager_keychain_from_data", "keychain-c/src/keychain_c.rs: keychain_verify", "keychain/src/networks/cardano/key.rs: Key::from_data", "keychain/src/networks/cardano/key.rs: Key::verify", "keychain/src/key_path.rs: GenericKeyPath::from", "keychain/src/key_path.rs: GenericKeyPath::parse_int", "keychain/src/key_path.rs: GenericKeyPath::hard_int"]}
{"id": "C79", "title": "What one leaked secret reveals", "statement": "The secret of a non-hardened child together with the parent's public key and chain code gives, by subtraction modulo the group order, exactly the parent's secret; along the two non-hardened steps of a path they give the secret of the account, from which the secrets of all its paths are derived. For Bitcoin and Ethereum this fails only where a step has a zero sum. For Cardano the whole parent key follows, also the half from which nonces are made.", "quantifier": "every key, index, seed and pair of paths of an account", "why_tests_cant": "the statement is about all keys of a 256-bit group.", "anchors": ["secp256k1_bip32/src/private.rs: derive", "keychain/src/networks/ethereum/key.rs: Key::derive_private", "keychain/src/networks/bitcoin/key.rs: Key::derive_private", "keychain/src/networks/cardano/key.rs: Key::derive_private"]}
{"id": "C80", "title": "Signatures that can be changed without the key", "statement": "What a Bitcoin or Ethereum key accepts depends only on the two numbers of the signature modulo the group order, and for the second not even on its sign; there is no other second number for the first, unless that is below 2^129. So every signature that a key makes has a twin, which verifies too and which no key ever makes. For Cardano, beside an accepted signature exactly those with the same first half are accepted whose second half is equal modulo the group order and in the range the library takes: none with the range of RFC 8032; with a range of 253 bits there is another one if the second half is below 2^253 - l.", "quantifier": "every key data, path, message and signature", "why_tests_cant": "the absence of further signatures concerns 2^256 values.", "anchors": ["secp256k1_bip32/src/public.rs: verify", "secp256k1_bip32/src/private.rs: sign", "keychain/src/networks/ethereum/key.rs: Key::verify", "keychain/src/networks/bitcoin/key.rs: Key::verify", "keychain/src/networks/cardano/key.rs: Key::verify"]}
{"id": "C81", "title": "What exported key data contains", "statement": "From one seed Bitcoin and Ethereum make the same 77 bytes, the BIP-32 root key, so that key data exported for one network gives all keys of the other. The last 32 of the 96 bytes of Cardano key data are the second half of the seed itself. After any history of a wallet made from a seed or a phrase, get_keys_data exports exactly this data, for exactly the networks of the manager that made the wallet and those added.", "quantifier": "every seed, phrase, manager and history of a wallet", "why_tests_cant": "all seeds and histories.", "anchors": ["keychain/src/manager.rs: get_keys_data", "keychain/src/networks/ethereum/key.rs: Key::data_from_seed", "keychain/src/networks/bitcoin/key.rs: Key::data_from_seed", "keychain/src/networks/cardano/key.rs: Key::data_from_seed"]}
{"id": "C82", "title": "The hash functions and the cipher are those of the standards", "statement": "The algorithms with which the other claims are evaluated are those of the documents: SHA-256 and SHA-512 of FIPS 180-4 (constants as roots of primes), Keccak-256 (the permutation by its five steps, constants from the shift register), RIPEMD-160, HMAC of RFC 2104, PBKDF2 of RFC 8018, ChaCha20 and Poly1305 of RFC 8439. Hence encrypted data opens with a password exactly if it is salt, nonce, tag and ciphertext as these documents define them for the key of 19162 rounds, with the ciphertext of the result; what is written is of that kind; and a seed is PBKDF2 with HMAC-SHA512, 2048 rounds, of the phrase with the salt 'mnemonic' and the password. The published test vectors are met.", "quantifier": "every message, key, nonce, password, salt and blob within the length limits of the standards", "why_tests_cant": "test vectors fix single inputs; another program reading or writing the data relies on all.", "anchors": ["keychain/src/crypt.rs: encrypt", "keychain/src/crypt.rs: decrypt", "bip39/src/bip39.rs: Seed::from_mnemonic_string"]}
{"id": "C83", "title": "From a phrase to keys and signatures by the documents alone", "statement": "A wallet made from a phrase (or a seed), after any sequence of password changes and added networks, opened by any manager of built-in networks, has exactly the common networks, and on each: the seed is PBKDF2-HMAC-SHA512 of the phrase as BIP-39 says; for Bitcoin and Ethereum there is the master key of BIP-32 of that seed, and at every path of the network without an exceptional step (left half zero or too large, or sum zero) the public key is the uncompressed form of k G for the secret k that BIP-32 derives, exactly the valid ECDSA signatures of the Keccak-256 hash are accepted, and every signature made is valid, has the lower s and recovers the public key; for Cardano, at every path, the key is the one that BIP32-Ed25519 derives from the clamped root, and the signatures are those of RFC 8032. It opens unless m/44'/60' has an exceptional step. Phrase, seed, master key and path determine the key.", "quantifier": "every phrase, seed, password, history, manager, path, message and signature", "why_tests_cant": "vectors check single phrases and paths; interoperability with other wallets needs all.", "anchors": ["keychain/src/manager.rs: keychain_data_from_mnemonic", "keychain/src/manager.rs: keychain_data_from_seed", "keychain/src/manager.rs: keychain_from_data", "keychain/src/manager.rs: change_password", "keychain/src/manager.rs: add_network", "secp256k1_bip32/src/private.rs: from_seed", "secp256k1_bip32/src/private.rs: derive", "secp256k1_bip32/src/private.rs: sign", "keychain/src/networks/ethereum/key.rs: Key::pub_key", "keychain/src/networks/ethereum/key.rs: Key::sign", "keychain/src/networks/ethereum/key.rs: Key::verify", "keychain/src/networks/bitcoin/key.rs: Key::pub_key", "keychain/src/networks/bitcoin/key.rs: Key::sign", "keychain/src/networks/bitcoin/key.rs: Key::verify", "keychain/src/networks/cardano/key.rs: Key::pub_key", "keychain/src/networks/cardano/key.rs: Key::sign", "keychain/src/networks/cardano/key.rs: Key::verify"]}
{"id": "C84", "title": "Which phrases have the same seed", "statement": "Of accepted phrases, in whatever languages, exactly those with equal texts and equal passphrases have the same seed whatever the hash in PBKDF2 and HMAC; in particular no phrase is another one followed by zeros, and the passphrase is not mixed up with the phrase. The same holds for the seeds of the bip39 crate with passphrases of any bytes. In the library, two phrases of more than 128 bytes with the same SHA-512, or such a phrase and a shorter one that is its SHA-512 up to zeros, would have the same seeds.", "quantifier": "every pair of phrases, languages, passphrases and sizes, every hash", "why_tests_cant": "an equivalence of all pairs of phrases.", "anchors": ["keychain/src/mnemonic.rs: seed_from_mnemonic", "bip39/src/bip39.rs: Seed::from_mnemonic_string", "bip39/src/bip39.rs: MnemonicString::new"]}
{"id": "C85", "title": "What refusals and printing tell about secrets", "statement": "About a password, a failed operation tells only that it is wrong: for a given blob all passwords that do not open it give the same error, which depends on the size of the blob alone, in opening, adding a network, changing the password, retrieving the phrase and exporting keys; through the C interface they give the same return value, the same variables and the same memory. The error for a refused phrase depends on its first unknown word only, which it repeats, or, if all words are known, on their number only; not on the other words nor on the password. Printing an Entropy or a Seed, for users or for debugging, prints all its bytes in hexadecimal, from which it can be read back whole.", "quantifier": "every blob, password, phrase, call and state of memory", "why_tests_cant": "it compares the outcomes of all pairs of secrets.", "anchors": ["keychain/src/manager.rs: keychain_from_data", "keychain/src/manager.rs: add_network", "keychain/src/manager.rs: change_password", "keychain/src/manager.rs: retrieve_mnemonic", "keychain/src/manager.rs: get_keys_data", "keychain/src/manager.rs: keychain_data_from_mnemonic", "keychain/src/crypt.rs: decrypt", "bip39/src/bip39.rs: Mnemonics::from_string", "bip39/src/bip39.rs: Entropy", "bip39/src/bip39.rs: Seed"]}
{"id": "C86", "title": "A wallet that goes from one C program to another", "statement": "A C program makes a wallet from a phrase (or a seed); other programs, of builds with whichever built-in networks, change its password or add networks and hand the data on. In any program, after any history, the data opens with the password unless the path m/44'/60' has an exceptional step. A keychain opened from it, at any later time until it is deleted, has exactly the networks that the program knows and that the wallet was made with or given; keychain_pub_key, keychain_sign and keychain_verify return true with the keys, signatures and answers that BIP-39, BIP-32, SEC 1, BIP32-Ed25519 and RFC 8032 give for the very bytes of the phrase that the first program passed.", "quantifier": "every phrase, seed, chain of programs and builds, their histories, memory contents, paths, messages and signatures", "why_tests_cant": "interoperation of programs over years; all histories.", "anchors": ["keychain-c/src/manager.rs: keychain_manager_keychain_data_from_mnemonic", "keychain-c/src/manager.rs: keychain_manager_keychain_data_from_seed", "keychain-c/src/manager.rs: keychain_manager_keychain_from_data", "keychain-c/src/manager.rs: keychain_manager_add_network", "keychain-c/src/manager.rs: keychain_manager_change_password", "keychain-c/src/keychain_c.rs: keychain_networks", "keychain-c/src/keychain_c.rs: keychain_pub_key", "keychain-c/src/keychain_c.rs: keychain_sign", "keychain-c/src/keychain_c.rs: keychain_verify"]}
{"id": "C87", "title": "A wallet file written or read by another program", "statement": "What the library stores, from a seed or a phrase and after any history of password changes and added networks, is exactly the file that the documents describe: salt, nonce, tag and ciphertext, where the key is PBKDF2-HMAC-SHA512 (RFC 8018, 19162 rounds) of the password, the seal is ChaCha20-Poly1305 (RFC 8439), the plaintext is JSON (RFC 8259) with Base64 (RFC 4648) inside, and the keys are the BIP-32 master key in its 77-byte form and the BIP32-Ed25519 root key of the wallet's seed, once for each network. Conversely a file of this kind that any other program wrote, with other spacing, order or further members, is read with just its fields, stands for one wallet only, can be changed and extended by the library, and opens to the keys that the documents give for its seed, unless the path m/44'/60' has an exceptional step. A file of version 1, which has keys only, opens to the same keys and its password can be changed, but no network can be added to it.", "quantifier": "every seed, phrase, password, file, JSON rendering, random source, history and manager of built-in networks", "why_tests_cant": "a round trip within the library cannot show a deviation that writer and reader share; files of other programs are unlimited.", "anchors": ["keychain/src/manager.rs: new_keychain_data", "keychain/src/manager.rs: keychain_data_from_bytes", "keychain/src/manager.rs: add_network", "keychain/src/manager.rs: change_password", "keychain/src/crypt.rs: encrypt", "keychain/src/crypt.rs: decrypt", "keychain/src/data.rs: VersionedData", "keychain/src/data.rs: WalletDataV2", "secp256k1_bip32/src/private.rs: serialize"]}
{"id": "C88", "title": "Threads that share managers do not disturb each other", "statement": "In a program of any number of threads and managers, in which any thread may begin any call at any time, also with what other threads have got: every finished call has a result that it could have alone on its manager, and no panic if the random sources never fail; a thread in a call can always go on, whatever the others do, and ends the call after at most two draws; no byte of a source is drawn twice, and salt, nonce and entropy are what the call itself drew; what calls of several threads made of a wallet is what the same operations make of it one after the other, and with the actual algorithms it is a file as the documents describe it, with the networks of its own history only: two networks added at the same time to one wallet give two wallets, neither with both.", "quantifier": "every number of threads and managers, program, schedule and random source", "why_tests_cant": "interleavings cannot be enumerated, and a test cannot choose the schedule.", "anchors": ["keychain/src/entropy.rs: OsEntropy::fill_bytes", "keychain/src/manager.rs: generate_mnemonic", "keychain/src/manager.rs: new_keychain_data", "keychain/src/manager.rs: change_password", "keychain/src/manager.rs: add_network", "keychain/src/crypt.rs: encrypt"]}
{"id": "C89", "title": "Derived text forms and orders of the bip39 types", "statement": "With the feature generic-serialization a word count, a phrase, a dictionary error and a hexadecimal error are written as one JSON document each, read back as themselves, and nothing else is read as them than their documents in any rendering; but reading a MnemonicString does not validate it: every text can be read as one, also one that MnemonicString::new refuses in every language, against the documented invariant of the type, while an accepted text stays accepted. The derived orders are total and agree with equality: types by their word counts, indices by number, texts by code points although they compare UTF-8 bytes, entropies by length and then as big-endian numbers, which is the order of their phrases, word by word.", "quantifier": "every value, JSON text and pair of values", "why_tests_cant": "orders and encodings are over all strings and byte arrays, and a round trip test cannot show that invalid text is accepted.", "anchors": ["bip39/src/bip39.rs: MnemonicString", "bip39/src/bip39.rs: Type", "bip39/src/bip39.rs: Entropy", "bip39/src/bip39.rs: MnemonicIndex", "bip39/src/bip39.rs: dictionary::Error", "bip39/src/util/hex.rs: Error"]}
{"id": "C90", "title": "Wallet files between C programs and others", "statement": "What C programs make from a seed or a phrase, changing the password and adding networks in any order and in different programs, is a file that the documents alone describe, with the very bytes of the phrase passed and a key of its seed for each network. Conversely a file that a program without the library wrote, of version 2 or 1, opens in any C program that has the password, also after C programs changed the password or added networks (which none can do to version 1), and a keychain opened from it has exactly the networks known and listed or added, with the public keys and signatures that the documents give for the seed; its phrase and its last listed key for each network are handed out as C reads them.", "quantifier": "every file, C program, history and build", "why_tests_cant": "another implementation of the format cannot be tested against all its texts, and memory contents have to be right for every program.", "anchors": ["keychain-c/src/manager.rs: keychain_manager_keychain_from_data", "keychain-c/src/manager.rs: keychain_manager_keychain_data_from_seed", "keychain-c/src/manager.rs: keychain_manager_keychain_data_from_mnemonic", "keychain-c/src/manager.rs: keychain_manager_add_network", "keychain-c/src/manager.rs: keychain_manager_change_password", "keychain-c/src/backup.rs: keychain_manager_get_keys_data", "keychain-c/src/backup.rs: keychain_manager_retrieve_mnemonic", "keychain/src/data.rs: VersionedData", "keychain/src/data.rs: WalletDataV2"]}
{"id": "C91", "title": "Lengths at the limits of usize", "statement": "For a slice shorter than an eighth of the address space, the entropy of a phrase is read alike in every build and on every machine. From there on a debug build panics at bytes.len() * 8, and a release build takes the length modulo an eighth of the address space: if that is a supported size, the first so many bytes are taken for the entropy without an error, and otherwise that size is reported. So a slice of 512 MiB and 16 bytes gives a phrase in a 32-bit release build, that of its first 16 bytes.", "quantifier": "every width, build and slice", "why_tests_cant": "nobody allocates an eighth of the address space in a test, and tests run on one machine in one build.", "anchors": ["bip39/src/bip39.rs: from_slice", "bip39/src/util/bits.rs: size", "keychain/src/mnemonic.rs: mnemonic_from_entropy"]}
{"id": "C92", "title": "Debug and release builds", "statement": "The build makes a difference to texts of key paths only. The constructors of paths agree in every build; the text of a path is read alike unless the first part that a debug build cannot take has a ' and a number from 2^31 on: then a debug build panics, and the builds differ exactly if the release build does not panic later. So a C program that asks for no path with such a number runs alike in both, call by call, with the same return values, variables and memory; if it asks for one that the release build accepts, C gets a path there, and false with the panic in a debug build.", "quantifier": "every text, C program, build and state of memory", "why_tests_cant": "tests run in one build, and the same program would have to be run in both on all inputs.", "anchors": ["keychain/src/key_path.rs: hard_int", "keychain/src/key_path.rs: parse_int", "keychain/src/key_path.rs: GenericKeyPath::from", "keychain/src/networks/bitcoin/key_path.rs: bip44", "keychain/src/networks/bitcoin/key_path.rs: bip49", "keychain/src/networks/bitcoin/key_path.rs: bip84", "keychain/src/networks/ethereum/key_path.rs: new", "keychain/src/networks/cardano/key_path.rs: new", "keychain-c/src/key_path.rs: keypath_from_string"]}
{"id": "C93", "title": "A random source that repeats itself", "statement": "Two encryptions for which the source delivers the same 44 bytes give blobs that begin alike, whatever the data and passwords; so do all calls of managers that give wallets, and phrases of one size and language from the same bytes are the same. With the real ciphers, if two blobs begin with the same 44 bytes and open with the same password, the rest of them shows the difference of their contents; whoever knows the contents of one reads the other as far as that goes, and can write blobs with contents of choice up to that length that open with the password, with at most 8*(blocks+1) tags to try, without knowing the password.", "quantifier": "every pair of blobs, contents, password, manager and state of the random source", "why_tests_cant": "a test would have to make the source repeat itself and then know what to look for in the bytes; that a forged blob opens for every password needs the algebra of Poly1305.", "anchors": ["keychain/src/crypt.rs: encrypt", "keychain/src/crypt.rs: decrypt", "keychain/src/entropy.rs: OsEntropy::fill_bytes", "keychain/src/manager.rs: new_keychain_data", "keychain/src/manager.rs: keychain_data_from_seed", "keychain/src/manager.rs: change_password", "keychain/src/manager.rs: add_network", "keychain/src/manager.rs: generate_mnemonic"]}
{"id": "C94", "title": "Builds with different features", "statement": "In a build with any of the features cardano, ethereum and bitcoin, `new` and `with_networks` make the managers that the full build makes for those networks that are built in. Of two managers of any builds: a phrase one generates can be restored by the other (with a working random source, if its seed gives a key for each network of the other) exactly if both or neither have Bitcoin or Ethereum; otherwise it is always refused as 9 words instead of 12 or 12 instead of 9. A wallet one made opens with the other to exactly the networks of both, each with the key that belongs to the seed, unless both have Ethereum and the seed has no key at m/44'/60'. The other can add a network of its own to it if it was made from a seed or if both or neither have Bitcoin or Ethereum, and the first then sees exactly what it saw before; otherwise the phrase is refused in the same way.", "quantifier": "every pair of feature sets and network lists, phrase, seed, password, order of maps and random source", "why_tests_cant": "each feature set is another build, and phrases and wallets would have to be carried between all pairs of builds.", "anchors": ["keychain/src/networks/mod.rs: all_networks", "keychain/src/network.rs: all", "keychain/src/manager.rs: new", "keychain/src/manager.rs: with_networks", "keychain/src/manager.rs: calculate_seed_size", "keychain/src/manager.rs: seed_from_data", "keychain/src/manager.rs: keychain_from_data", "keychain/src/manager.rs: add_network", "keychain/src/manager.rs: generate_mnemonic"]}
{"id": "C95", "title": "What of its words determines a phrase", "statement": "The first letters of a word, accents and Kana marks left out, determine it in its language: 4 in English, French, Italian and Spanish, 3 in Japanese, 5 (conjoining letters) in Korean, 1 in Chinese; one letter fewer does not. So two accepted phrases of a language whose words have the same first letters in order are the same. In all languages but English and Spanish a phrase without its spaces determines it; in those two there are different accepted phrases with the same letters. In French and Italian no character put in the place of another makes another word of a word; in every other language there are such words.", "quantifier": "every language, all words and all accepted phrases", "why_tests_cant": "all pairs of words of eight lists, and all phrases.", "anchors": ["bip39/src/bip39.rs: ENGLISH", "bip39/src/bip39.rs: FRENCH", "bip39/src/bip39.rs: ITALIAN", "bip39/src/bip39.rs: SPANISH", "bip39/src/bip39.rs: JAPANESE", "bip39/src/bip39.rs: KOREAN", "bip39/src/bip39.rs: CHINESE_SIMPLIFIED", "bip39/src/bip39.rs: CHINESE_TRADITIONAL", "bip39/src/bip39.rs: Mnemonics::from_string", "bip39/src/bip39.rs: lookup_mnemonic"]}
{"id": "C96", "title": "Completing a phrase", "statement": "Whatever the other words are, exactly 2^(11-c) words of a list can stand last so that the checksum (of c bits, one third of the number of words) is right: one in each block of 2^c consecutive words of the list. So of the 2047 ways to get the last word of a good phrase wrong by taking another word of the list, exactly 2^(11-c)-1 are not shown by the checksum. Restoring accepts each of the 2048 words.", "quantifier": "every language, every number of words, all other words, any SHA-256", "why_tests_cant": "the number of beginnings is 2^121 and more, and the claim holds for each.", "anchors": ["bip39/src/bip39.rs: Entropy::from_mnemonics", "bip39/src/bip39.rs: Mnemonics::from_string", "keychain/src/mnemonic.rs: seed_from_mnemonic"]}
{"id": "C97", "title": "What changes keep of a wallet another program wrote", "statement": "The text of a wallet is written to the byte as: version 2 and Base64 of the fields seed, mnemonic, dictionary and keys, without spaces, with the shortest escapes. Changing the password, any number of times, keeps the text that was there to the byte, whatever it is. Adding a network writes the text anew from the fields that were read: the seed, phrase and language, every key that a network was last listed with, also of networks that the manager does not know, and the new key; nothing else. So members that other programs put there, earlier keys of a network listed twice and spacing are lost without an error: two texts with the same content become the same text but for the order of the keys. What the library made from a seed or phrase, or added to, stays such a text through any history.", "quantifier": "all blobs, contents, managers, networks, passwords, random sources and map orders; all histories", "why_tests_cant": "what is lost shows in files of other programs only, and the exact text must hold for all contents.", "anchors": ["keychain/src/data.rs: VersionedData::new", "keychain/src/data.rs: VersionedData::to_bytes", "keychain/src/data.rs: serialize::se_key_map", "keychain/src/manager.rs: KeychainManager::add_network", "keychain/src/manager.rs: KeychainManager::change_password"]}
{"id": "C98", "title": "One blob for two passwords", "statement": "The cipher does not tie a blob to one password. For two passwords, a salt and a nonce there is a blob that decrypts with both exactly if the Poly1305 points of the two keys differ or their pads are the same. If the points differ there is one that begins with any chosen content under the first password and has any chosen content right after that under the second; it is at most 331 bytes longer than the two. Opening a blob of more than 60 bytes is refused as a wrong password exactly if it does not decrypt, so the answer tells whoever made such a blob whether the password tried is one of the two. The password of such a blob can be changed with either password, and the new blob has the content that belongs to the one used.", "quantifier": "all pairs of passwords, salts, nonces and contents", "why_tests_cant": "blobs that open with two passwords do not come up at random; that they exist for nearly all pairs is a statement about all keys of the cipher.", "anchors": ["keychain/src/crypt.rs: encrypt", "keychain/src/crypt.rs: decrypt", "keychain/src/manager.rs: KeychainManager::keychain_from_data", "keychain/src/manager.rs: KeychainManager::change_password", "keychain/src/manager.rs: KeychainManager::keychain_data_from_bytes"]}
{"id": "C99", "title": "Whose signature of what a signature is", "statement": "Let a Bitcoin or Ethereum key with secret x accept a signature (r, s) of a message with hash z. Unless r modulo n is below p - n (less than 2^129), a key with secret x' accepts it for a message with hash z' exactly if z' + r x' is z + r x or its opposite modulo n. So a message with a signature leaves at most two public keys (four for such small r), and a key with a signature at most two (four) hashes modulo n. The second key can be computed from the signature and the first and accepts it, unless its secret would be 0. For any two messages whose hashes are neither the same nor opposite modulo n there are a key and one signature that it accepts for both. A Cardano key accepts a signature that another accepts exactly if the products of the hash (of first half, public key and message) and the scalar are the same modulo l; one key accepts it for another message exactly if the hashes are the same modulo l.", "quantifier": "all keys loaded from any data, all paths, messages and 64-byte signatures", "why_tests_cant": "it speaks of all other keys and messages; a signature that is good for two messages must be computed, it does not come up by chance.", "anchors": ["secp256k1_bip32/src/public.rs: XPub::verify", "secp256k1_bip32/src/private.rs: XPrv::sign", "keychain/src/networks/bitcoin/key.rs: Key::verify", "keychain/src/networks/ethereum/key.rs: Key::verify", "keychain/src/networks/cardano/key.rs: Key::verify"]}
{"id": "C100", "title": "The parts of a wallet are not checked against each other", "statement": "What opening gives depends on the stored keys alone: two blobs from which the same keys are exported open alike, whatever seeds and phrases they hold. The phrase shown is the stored text whatever seed and keys are stored. A network is added with the key of the stored seed if there is one, whatever phrase and keys are stored. Every combination of seed, phrase, language and keys is held by some blob. So there are blobs that open with keys of some seeds, show the phrase of another and get keys of a third, and no call fails. (The library itself stores only what belongs together, C44 and C87.)", "quantifier": "all contents, managers with any factories, passwords, ciphers, map orders and random sources", "why_tests_cant": "wallets whose parts do not belong together come from elsewhere; independence is a statement about pairs of runs.", "anchors": ["keychain/src/manager.rs: KeychainManager::keychain_from_data", "keychain/src/manager.rs: KeychainManager::add_network", "keychain/src/manager.rs: KeychainManager::retrieve_mnemonic", "keychain/src/manager.rs: KeychainManager::get_keys_data", "keychain/src/manager.rs: KeychainManager::seed_from_data", "keychain/src/data.rs: VersionedData::get_data"]}
{"id": "C101", "title": "One value of PBKDF2 per password and salt", "statement": "Opening a blob, exporting its keys and showing its phrase rest on one value of PBKDF2, that for the UTF-8 bytes of the password, the first 32 bytes of the blob, 19162 rounds and 32 bytes; on none if the blob has at most 60 bytes. With any other function that agrees there, and may differ everywhere else, each gives the same result, error or value; so a table for another salt or another number of rounds is of no use, and who knows this value alone can read the wallet. Encryption rests on the value for the salt that its result begins with; changing the password on that of the old password with the old salt and that of the new password with the new salt; adding a network on those of the password with both salts, and, if the wallet holds no seed, on that of the phrase (salt \"mnemonic\", 2048 rounds, 64 bytes); creation from a seed on one, from a phrase on one more. Making up a phrase rests on none. The value is needed: with two functions that differ in it alone the library's cipher opens a blob and refuses it.", "quantifier": "all pairs of hash functions, blobs, passwords, phrases, managers with any factories, ciphers, map orders and random sources", "why_tests_cant": "it compares runs with different functions, of which a build has one.", "anchors": ["keychain/src/crypt.rs: encrypt", "keychain/src/crypt.rs: decrypt", "keychain/src/manager.rs: KeychainManager::keychain_from_data", "keychain/src/manager.rs: KeychainManager::add_network", "keychain/src/manager.rs: KeychainManager::change_password", "keychain/src/manager.rs: KeychainManager::retrieve_mnemonic", "keychain/src/manager.rs: KeychainManager::get_keys_data", "keychain/src/manager.rs: KeychainManager::keychain_data_from_seed", "keychain/src/manager.rs: KeychainManager::keychain_data_from_mnemonic", "keychain/src/manager.rs: KeychainManager::generate_mnemonic"]}
{"id": "C102", "title": "Copies of a wallet that went separate ways", "statement": "Two wallets that come from one by any two histories of password changes and added networks, with managers that use the same factory for a network, hold the same seed, phrase and language, and the same key for every network that both have; if the same networks were added to both, they hold the same. A network that was added to one can be added to the other by the manager that added it there, and gets the same key. A copy that was kept goes on to open with the password it had then, shows the same phrase, and every key that was added to the wallet since can be made from it with that password: changing the password takes back nothing from those who have an older copy and its password.", "quantifier": "all wallets (also of other programs), pairs of histories, managers with any factories, passwords, map orders and random sources", "why_tests_cant": "pairs of histories of any length.", "anchors": ["keychain/src/manager.rs: KeychainManager::change_password", "keychain/src/manager.rs: KeychainManager::add_network", "keychain/src/manager.rs: KeychainManager::retrieve_mnemonic", "keychain/src/manager.rs: KeychainManager::seed_from_data"]}
{"id": "C103", "title": "Dictionaries of the caller", "statement": "For every implementation of the trait Language, with any separator, word look-up and index look-up: from_string cuts the text where the separator occurs first, then behind it again, accepts exactly if the dictionary knows every piece and their number is allowed, and gives the indices the dictionary gave; else the first refused piece is reported with the dictionary's error, then a wrong number of pieces. to_string gives the dictionary's words with its separator between them and panics exactly if there is none for an index. Words joined by the separator are cut apart again exactly if in each word but the last, followed by the separator, the separator occurs at the end only, and in the last not at all; then phrases round-trip. The crate's own dictionaries, with any words, are an instance. With the empty separator a dictionary that does not know the empty word accepts no text, not even its own. MnemonicString::new keeps the text given, so a dictionary that knows several spellings (as the documentation suggests) gives one phrase and entropy but different strings, whose seeds are PBKDF2 of different bytes. An index above 2047 from such a dictionary is accepted; its entropy is that of the index modulo 2048, and the crate's own dictionaries read out of bounds for it.", "quantifier": "every Language implementation (with fixed answers), every text and phrase", "why_tests_cant": "dictionaries are code of the caller; all of them cannot be tried.", "anchors": ["bip39/src/bip39.rs: Mnemonics::from_string", "bip39/src/bip39.rs: Mnemonics::to_string", "bip39/src/bip39.rs: MnemonicString::new", "bip39/src/bip39.rs: MnemonicIndex::to_word", "bip39/src/bip39.rs: MnemonicIndex::from_word", "bip39/src/bip39.rs: Language", "bip39/src/bip39.rs: DefaultDictionary", "bip39/src/bip39.rs: Entropy::from_mnemonics", "bip39/src/bip39.rs: Seed::from_mnemonic_string"]}
{"id": "C104", "title": "Paths of the caller that answer differently each time", "statement": "For every implementation of the trait KeyPath, also one whose getters answer differently from call to call: an operation of a key succeeds exactly if the path passes the checks with some answers (the network's purpose and coin, hardened account, change 0 at the first question or 1 at the second, soft address) and, asked again, gives numbers along which there is a key; the key is derived with the later answers, which are not checked. So for any numbers there is a path that passes the checks and gets the key at those numbers: a Bitcoin key works at any five numbers from the root, so it gives the public keys and signatures of the wallet's Ethereum accounts; an Ethereum or Cardano key stays below 44' and its coin, with any account, change and address. A path is refused by the first check that fails, in the order purpose, coin, account, change, address, and the error carries what the path said when asked once more, which may be the very number expected. With fixed answers, as all paths of the crate and of the C interface have, the keys do what the other claims say.", "quantifier": "every KeyPath implementation (answers as any function of the calls made before), every network, key data, message and signature", "why_tests_cant": "paths are code of the caller, and tests use paths that do not change.", "anchors": ["keychain/src/networks/bitcoin/key.rs: Key::derive_private", "keychain/src/networks/bitcoin/key.rs: Key::pub_key", "keychain/src/networks/bitcoin/key.rs: Key::sign", "keychain/src/networks/bitcoin/key.rs: Key::verify", "keychain/src/networks/ethereum/key.rs: Key::derive_private", "keychain/src/networks/ethereum/key.rs: Key::pub_key", "keychain/src/networks/ethereum/key.rs: Key::sign", "keychain/src/networks/ethereum/key.rs: Key::verify", "keychain/src/networks/cardano/key.rs: Key::derive_private", "keychain/src/networks/cardano/key.rs: Key::pub_key", "keychain/src/networks/cardano/key.rs: Key::sign", "keychain/src/networks/cardano/key.rs: Key::verify", "keychain/src/key_path.rs: KeyPath"]}
{"id": "C105", "title": "How often salt and nonce, or a phrase, come up again", "statement": "Let a caller choose every call by all results so far, on any managers, with any arguments, and get at most k encrypted blobs. Of all outputs of the random source of a length (as far as they suffice) the share of those with which two of the blobs begin with the same salt and nonce is at most k(k-1)/2 divided by 256^44; for 2^64 blobs it is at most 2^-225. For phrases of one size in one language the share of the outputs with which one of k phrases comes up again is at most k(k-1)/2 divided by 2^size. The bound is reached: a call that can give a blob, made twice, meets a repetition for exactly 256^44 of the 256^88 outputs. The bound for blobs also holds for any number of threads that share a manager, each with its calls, under every schedule and whichever calls to the source fail.", "quantifier": "all callers (adaptive, also mixing successes, failures and generated phrases), managers with any factories, ciphers, hash functions and map orders, all k and all lengths; adaptive callers for one thread and a source that does not fail, fixed calls for several threads and any failures", "why_tests_cant": "a count over all outputs of the source; repetitions are too rare to be met in tests.", "anchors": ["keychain/src/crypt.rs: encrypt", "keychain/src/entropy.rs: OsEntropy::fill_bytes", "keychain/src/manager.rs: KeychainManager::generate_mnemonic", "keychain/src/manager.rs: KeychainManager::keychain_data_from_seed", "keychain/src/manager.rs: KeychainManager::keychain_data_from_mnemonic", "keychain/src/manager.rs: KeychainManager::change_password", "keychain/src/manager.rs: KeychainManager::add_network"]}
{"id": "C106", "title": "How many hash values give a key", "statement": "Of the 256^64 values of HMAC-SHA512 in XPrv::derive with some index, exactly (n-2)*256^32 give the child with that index, exactly 256^32 make the code go on with the next index, and exactly (2^256-n+1)*256^32 give the error invalid secret key (less than one in 2^127); which is the case depends only on the first half of the value and, for the second case, on the parent's secret. Different values give children with different secret or chain code. Every secret but the parent's own, with every chain code, is that of the child for some value; the parent's own secret never is. A seed has a root for exactly (n-1)*256^32 values, with the two halves as secret and chain code, and is refused for the rest. For Cardano every key data that ends with the second half of the seed and has the required bits comes from exactly 64 of the 256^64 values of SHA-512.", "quantifier": "every parent of depth below 255, every index (for going on: not the last), every curve and all hash functions; every seed", "why_tests_cant": "a count over all values of the hash; the refused ones never occur in tests.", "anchors": ["secp256k1_bip32/src/private.rs: XPrv::derive", "secp256k1_bip32/src/private.rs: XPrv::from_seed", "keychain/src/networks/cardano/key.rs: Key::data_from_seed"]}
{"id": "C107", "title": "How many byte strings a password opens", "statement": "With ChaCha20-Poly1305 itself: a byte string decrypts to some data with a password exactly if encrypt can give it for that data and password with some output of the random source. For each content that is not empty a password opens exactly 256^44 byte strings. Of the byte strings of any length above 60 a password opens exactly one in 256^16, of the shorter ones none; of the byte strings of a length the share that at least one of q passwords opens is at most q to 256^16. The byte strings of a length that the manager reads as a wallet are exactly 256^44 times as many as the stored wallets that are 60 bytes shorter, and keychain_from_data opens no others.", "quantifier": "every password (and every finite set of passwords), length, set of contents, hash functions, Base64 decoder and manager", "why_tests_cant": "a count over all byte strings.", "anchors": ["keychain/src/crypt.rs: encrypt", "keychain/src/crypt.rs: decrypt", "keychain/src/manager.rs: KeychainManager::get_keys_data", "keychain/src/manager.rs: KeychainManager::keychain_from_data"]}
{"id": "C108", "title": "How many signatures a key accepts", "statement": "Wherever a Bitcoin or Ethereum key has a public key, of the pairs of numbers below the group order n at least n-9 and at most n-1 are accepted as signatures of a message, and at most 4(n-1) of the 2^512 byte strings of 64 bytes, less than one in 2^254. At a path of its network a Cardano key accepts at least l and at most 16 l of them, less than one in 2^255, and exactly l if the library takes only second halves below the group order l, as RFC 8032 asks.", "quantifier": "every key loaded from any data, every path, message and choice of nonces; secp256k1 and Ed25519 themselves", "why_tests_cant": "a count over all 2^512 signatures.", "anchors": ["secp256k1_bip32/src/public.rs: XPub::verify", "keychain/src/networks/cardano/key.rs: Key::verify", "keychain/src/networks/bitcoin/key.rs: Key::verify", "keychain/src/networks/ethereum/key.rs: Key::verify"]}
{"id": "C109", "title": "How many byte strings are key data", "statement": "Exactly (n-1) 256^41 byte strings load as an extended private key and so as a Bitcoin key, n the group order: less than one in 2^32 of those of 77 bytes, and none of another length. No more load as an Ethereum key. Of the byte strings of 96 bytes exactly one in 64 loads as a Cardano key, and none of another length.", "quantifier": "all byte strings; any hash functions, curve and Ed25519", "why_tests_cant": "a count over all 2^616 byte strings of 77 bytes and all 2^768 of 96 bytes.", "anchors": ["secp256k1_bip32/src/private.rs: XPrv::from_data", "keychain/src/networks/bitcoin/key.rs: Key::from_data", "keychain/src/networks/ethereum/key.rs: Key::from_data", "keychain/src/networks/cardano/key.rs: Key::from_data"]}
{"id": "C110", "title": "How many phrases and paths are accepted", "statement": "Of the phrases of w words of a list exactly 2^ent have a right checksum, ent the bits of entropy of that length, so one in 2^c, c the bits of the checksum. Every key of Ethereum and of Cardano takes exactly 2^63 of the 2^160 paths and every key of Bitcoin exactly 2^95; all others it refuses as paths. The constructor of Cardano paths gives all that its keys take, those of Bitcoin paths (main network) exactly those with purpose 44', 49' or 84', those of Ethereum paths exactly those with change 0 and account 0' or address 0.", "quantifier": "every supported number of words and 32-byte hash; every key of every network, every path", "why_tests_cant": "a count over all 2048^w phrases and all 2^160 paths.", "anchors": ["bip39/src/bip39.rs: Entropy::from_mnemonics", "keychain/src/networks/bitcoin/key.rs: Key::derive_private", "keychain/src/networks/ethereum/key.rs: Key::derive_private", "keychain/src/networks/cardano/key.rs: Key::derive_private", "keychain/src/networks/cardano/key_path.rs: KeyPath::new", "keychain/src/networks/ethereum/key_path.rs: KeyPath::new", "keychain/src/networks/ethereum/key_path.rs: KeyPath::new_metamask", "keychain/src/networks/bitcoin/key_path.rs: KeyPath::bip44", "keychain/src/networks/bitcoin/key_path.rs: KeyPath::bip49", "keychain/src/networks/bitcoin/key_path.rs: KeyPath::bip84"]}
{"id": "C111", "title": "What the text of a panic tells", "statement": "If a wallet stores a phrase with a NUL, asking for the phrase through the C interface with the right password returns false with a Panic error whose text is that of unwrapping the NulError of to_cstr: it names the place of the NUL and all bytes of the phrase, and so determines the phrase. No phrase that the library itself accepts into a wallet has a NUL.", "quantifier": "every wallet, phrase and password, every live manager handle and state of the memory", "why_tests_cant": "the text is made by the standard library from a value the tests never see.", "anchors": ["keychain-c/src/utils/string.rs: ToCString::to_cstr", "keychain-c/src/utils/panic.rs: handle_exception_result", "keychain-c/src/backup.rs: keychain_manager_retrieve_mnemonic"]}
{"id": "C112", "title": "C variables used again", "statement": "A C program may use its variables again, having results and errors written over what they held. If it deletes no text twice and no non-empty network list, it has no undefined behaviour whatever it writes over; every variable is as handed out or deleted, and no block has two owners. If it deletes what a variable holds before having something else written to it, the live blocks are exactly those its variables are responsible for. What is written over without being deleted is never freed by any later call: it stays in memory with its content, and no variable is responsible for it. A copy of what was deleted stays unusable (C113), whatever is written to the variable.", "quantifier": "every program of calls and deletes over any number of variables", "why_tests_cant": "needs all histories; a leak is silent in tests.", "anchors": ["keychain-c/src/utils/result.rs: CResult::response", "keychain-c/src/utils/data.rs: DataPtr::free", "keychain-c/src/error.rs: delete_error"]}
{"id": "C113", "title": "Copies of C structs", "statement": "The delete functions clear the caller's struct (except delete_string), which protects that struct alone: of a value that holds memory, deleting any copy made before its deletion is undefined behaviour, at once or after any further calls and deletions, and so is calling any function with a copy of a deleted handle.", "quantifier": "every kind of value, every function with a handle, every further history", "why_tests_cant": "undefined behaviour often goes unnoticed in a test.", "anchors": ["keychain-c/src/keychain_c.rs: KeychainPtr::free", "keychain-c/src/keychain_c.rs: KeychainPtr::rust_ref", "keychain-c/src/manager.rs: KeychainManagerPtr::free", "keychain-c/src/manager.rs: KeychainManagerPtr::rust_ref", "keychain-c/src/utils/data.rs: DataPtr::free", "keychain-c/src/backup.rs: KeyBackupPtr::free", "keychain-c/src/error.rs: delete_error"]}
{"id": "C114", "title": "What panics print", "statement": "After keychain_init_library no call prints anything to standard error, whatever follows; all that a program prints it prints before. Before that each panic prints its payload, those that a call returns as errors too: a call prints nothing if it works or returns an error other than Panic, and just the text of the error if that is a Panic error; if a panic leaves the function the last printed is that of a text with a NUL. So asking for a stored phrase with a NUL before keychain_init_library prints the phrase.", "quantifier": "every program of calls and deletions, every call and outcome", "why_tests_cant": "needs all programs; standard error is not looked at by tests.", "anchors": ["keychain-c/src/lib.rs: keychain_init_library", "keychain-c/src/utils/panic.rs: hide_exceptions", "keychain-c/src/utils/panic.rs: handle_exception_result"]}
{"id": "C115", "title": "The rule for C programs is exact", "statement": "A C program has undefined behaviour just if it deletes a text that is not live or a network list that is neither empty nor already cleared; the same for programs that use their variables again. So a network list that is not empty can never be given back: as long as a program has no undefined behaviour the list stays in memory.", "quantifier": "every program of calls and deletes", "why_tests_cant": "needs all programs; undefined behaviour often goes unnoticed in a test.", "anchors": ["keychain-c/src/network.rs: NetworksPtr::free", "keychain-c/src/utils/string.rs: delete_string"]}
{"id": "C116", "title": "A deleted phrase stays in memory but for one byte", "statement": "Deleting a text through the C interface overwrites its first byte only: all other bytes are left where they were, and nothing else is written. What is left of a deleted phrase determines the phrase but for the first byte of its first word: two phrases, of whatever sizes and languages, that leave the same memory have the same text after the first space, and first words that agree after their first byte.", "quantifier": "every memory, address, phrase, size and language", "why_tests_cant": "needs every phrase and memory; tests do not look at freed memory.", "anchors": ["keychain-c/src/utils/string.rs: delete_string", "keychain-c/src/utils/string.rs: CharPtr::free", "keychain-c/src/backup.rs: MnemonicInfoPtr::free", "keychain-c/src/backup.rs: delete_mnemonic_info"]}
