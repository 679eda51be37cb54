{
 "claims": [
  {
   "property": "C01",
   "status": "proved",
   "theorems": [
    "KC.Props.C01_pack",
    "KC.Props.C01_roundtrip",
    "KC.Props.C01_roundtrip_in_range",
    "KC.Props.C01_case"
   ],
   "note": "Packing never panics, bit-exact output with zero padding below 8 bits, reading back gives the written values modulo 2048."
  },
  {
   "property": "C02",
   "status": "proved",
   "theorems": [
    "KC.Props.C02_read",
    "KC.Props.C02_overrun",
    "KC.Props.C02_size",
    "KC.Props.C02_case"
   ],
   "note": "Reader semantics for every buffer and every number of reads; usize overflow of len*8 is not modelled."
  },
  {
   "property": "C03",
   "status": "proved",
   "theorems": [
    "KC.Props.C03_case",
    "KC.Props.C03_encode",
    "KC.Props.C03_roundtrip"
   ],
   "note": "Encoder never panics, output is the two lower-case digits per byte; decode inverts it."
  },
  {
   "property": "C04",
   "status": "proved",
   "theorems": [
    "KC.Props.C04_accept",
    "KC.Props.C04_reject",
    "KC.Props.C04_language"
   ],
   "note": "Exact language accepted, position of first bad character; a trailing odd digit is silently dropped (part of the proved language)."
  },
  {
   "property": "C05",
   "status": "proved",
   "theorems": [
    "KC.Props.C05_to_mnemonics",
    "KC.Props.C05_roundtrip",
    "KC.Props.C05_case"
   ],
   "note": "Every entropy value of every size; SHA-256 arbitrary of output length 32."
  },
  {
   "property": "C06",
   "status": "proved",
   "theorems": [
    "KC.Props.C06_exact",
    "KC.Props.C06_reencode",
    "KC.Props.C06_unique",
    "KC.Props.C06_case",
    "KC.Props.C06_error"
   ],
   "note": "Accepted iff the checksum bits match; error otherwise; one accepted in-range phrase per entropy."
  },
  {
   "property": "C07",
   "status": "proved",
   "theorems": [
    "KC.Props.C07_word_count",
    "KC.Props.C07_entropy_size",
    "KC.Props.C07_consistent",
    "KC.Props.C07_complete",
    "KC.Props.C07_display",
    "KC.Props.C07_case"
   ],
   "note": "All counts, sizes and printed forms."
  },
  {
   "property": "C08",
   "status": "proved",
   "theorems": [
    "KC.Props.C08_roundtrip",
    "KC.Props.C08_canonical",
    "KC.Props.C08_injective"
   ],
   "note": "All eight dictionaries."
  },
  {
   "property": "C09",
   "status": "proved",
   "theorems": [
    "KC.Props.C09_words",
    "KC.Props.C09_roundtrip",
    "KC.Props.C09_lookup",
    "KC.Props.C09_names"
   ],
   "note": "All eight dictionaries; distinctness and absence of spaces checked by kernel computation on the full lists."
  },
  {
   "property": "C10",
   "status": "proved",
   "theorems": [
    "KC.Props.C10_new",
    "KC.Props.C10_lookup_defined",
    "KC.Props.C10_from_string",
    "KC.Props.C10_case"
   ],
   "note": "lookup_word is undefined behaviour exactly outside 0..=2047; indices made by the API are inside."
  },
  {
   "property": "C11",
   "status": "proved",
   "theorems": [
    "KC.Props.C11_accept",
    "KC.Props.C11_unknown_word",
    "KC.Props.C11_wrong_count",
    "KC.Props.C11_pieces",
    "KC.Props.C11_no_extra_space",
    "KC.Props.C11_mnemonic_string"
   ],
   "note": "Exact language of accepted texts; first unknown word or wrong count reported."
  },
  {
   "property": "C12",
   "status": "proved",
   "theorems": [
    "KC.Props.C12_case",
    "KC.Props.C12_seed",
    "KC.Props.C12_from_slice",
    "KC.Props.C12_mnemonic_string",
    "KC.Props.C12_case_phrase",
    "KC.Props.C12_bytes"
   ],
   "note": "PBKDF2 is a parameter; arguments are exact. The case has a phrase of twelve words and its known seed, with PBKDF2 evaluated."
  },
  {
   "property": "C13",
   "status": "proved",
   "theorems": [
    "KC.Props.C13_outcome",
    "KC.Props.C13_refused"
   ],
   "note": "All texts; no panics."
  },
  {
   "property": "C14",
   "status": "proved",
   "theorems": [
    "KC.Props.C14_accepts_all",
    "KC.Props.C14_typo_accepted"
   ],
   "note": "Proved as the actual (unsafe) behaviour: checksum never checked, and a one-word typo with wrong checksum is accepted."
  },
  {
   "property": "C15",
   "status": "proved",
   "theorems": [
    "KC.Props.C15_generate",
    "KC.Props.C15_bad_size"
   ],
   "note": "For every random stream; assumes the source does not fail in this draw and its lock is not poisoned (C54 covers failures)."
  },
  {
   "property": "C16",
   "status": "proved",
   "theorems": [
    "KC.Props.C16_roundtrip",
    "KC.Props.C16_injective",
    "KC.Props.C16_format"
   ],
   "note": "All paths, both build profiles; also injectivity and the exact printed format."
  },
  {
   "property": "C17",
   "status": "proved",
   "theorems": [
    "KC.Props.C17_accept",
    "KC.Props.C17_component_unique",
    "KC.Props.C17_count",
    "KC.Props.C17_marker",
    "KC.Props.C17_part_error"
   ],
   "note": "Equivalence with an independent grammar (white space, optional plus, digits, apostrophe); error order and indices."
  },
  {
   "property": "C18",
   "status": "proved",
   "theorems": [
    "KC.Props.C18_hardened",
    "KC.Props.C18_overflow",
    "KC.Props.C18_path"
   ],
   "note": "Proved as stated: numbers below 2^31 are hardened; from 2^31 up debug panics and release yields a soft index (a defect of the code)."
  },
  {
   "property": "C19",
   "status": "proved",
   "theorems": [
    "KC.Props.C19_panic",
    "KC.Props.C19_ascii_release"
   ],
   "note": "Exact panic condition for every text and profile."
  },
  {
   "property": "C20",
   "status": "proved",
   "theorems": [
    "KC.Props.C20_case",
    "KC.Props.C20_bitcoin",
    "KC.Props.C20_cardano",
    "KC.Props.C20_ethereum",
    "KC.Props.C20_injective",
    "KC.Props.C20_ethereum_injective"
   ],
   "note": "All arguments; includes the defect that InvalidAddress carries the change value."
  },
  {
   "property": "C21",
   "status": "proved",
   "theorems": [
    "KC.Props.C21_refuses",
    "KC.Props.C21_accepts",
    "KC.Props.C21_one_error",
    "KC.Props.C21_own_paths",
    "KC.Props.C21_testnet_refused"
   ],
   "note": "All paths and all loaded keys of the three networks; Cardano verify checks the signature length before the path, so its path errors are stated for 64-byte signatures."
  },
  {
   "property": "C22",
   "status": "proved",
   "theorems": [
    "KC.Props.C22_disjoint",
    "KC.Props.C22_refused_elsewhere"
   ],
   "note": "Every path and pair of networks."
  },
  {
   "property": "C23",
   "status": "proved",
   "theorems": [
    "KC.Props.C23_roundtrip",
    "KC.Props.C23_unique",
    "KC.Props.C23_injective"
   ],
   "note": "Any SHA-256 with 32-byte output; layout given by an independent specification."
  },
  {
   "property": "C24",
   "status": "proved",
   "theorems": [
    "KC.Props.C24_accepts",
    "KC.Props.C24_value",
    "KC.Props.C24_refuses",
    "KC.Props.C24_no_panic",
    "KC.Props.C24_checksum_flip"
   ],
   "note": "Exact acceptance, value and errors; a changed checksum is always refused."
  },
  {
   "property": "C25",
   "status": "proved",
   "theorems": [
    "KC.Props.C25_step",
    "KC.Props.C25_depth_limit",
    "KC.Props.C25_walk_depth",
    "KC.Props.C25_from_root"
   ],
   "note": "Every key, index and list of steps."
  },
  {
   "property": "C26",
   "status": "proved",
   "theorems": [
    "KC.Props.C26_exact",
    "KC.Props.C26_child",
    "KC.Props.C26_zero_sum",
    "KC.Props.C26_bad_left",
    "KC.Props.C26_errors",
    "KC.Props.C26_no_panic",
    "KC.Props.C26_root"
   ],
   "note": "Exact: success iff the independent BIP-32 relation holds; all errors characterised. The two deviations from BIP-32 are proved."
  },
  {
   "property": "C27",
   "status": "proved",
   "theorems": [
    "KC.Props.C27_hardened_stays",
    "KC.Props.C27_soft_stays",
    "KC.Props.C27_soft_can_harden",
    "KC.Props.C27_terminates"
   ],
   "note": "The expectation is refuted by a concrete instance; exact condition when it holds is proved."
  },
  {
   "property": "C28",
   "status": "proved",
   "theorems": [
    "KC.Props.C28_case",
    "KC.Props.C28_own_signature_refused",
    "KC.Props.C28_first_64_verify",
    "KC.Props.C28_cardano"
   ],
   "note": "Refutes the expectation for Bitcoin and Ethereum (65 against 64 bytes); ECDSA and EdDSA correctness are hypotheses, shown satisfiable."
  },
  {
   "property": "C29",
   "status": "proved",
   "theorems": [
    "KC.Props.C29_secp",
    "KC.Props.C29_secp_no_panic",
    "KC.Props.C29_cardano"
   ],
   "note": "Every length; the Cardano panic above 64 bytes is proved."
  },
  {
   "property": "C30",
   "status": "proved",
   "theorems": [
    "KC.Props.C30_case",
    "KC.Props.C30_load",
    "KC.Props.C30_from_seed",
    "KC.Props.C30_seed_size"
   ],
   "note": "Any SHA-512 with 64-byte output; exact bytes, loading by length and bits; the panic above 96 bytes is proved."
  },
  {
   "property": "C31",
   "status": "proved",
   "theorems": [
    "KC.Props.C31_secp",
    "KC.Props.C31_load",
    "KC.Props.C31_cardano"
   ],
   "note": "Exact equivalences for pub_key, sign and verify of all three networks."
  },
  {
   "property": "C32",
   "status": "proved",
   "theorems": [
    "KC.Props.C32_roundtrip",
    "KC.Props.C32_succeeds",
    "KC.Props.C32_empty"
   ],
   "note": "Any data, password and random output; the cipher is a parameter assumed correct (AeadCorrect). The empty-data defect is proved."
  },
  {
   "property": "C33",
   "status": "proved",
   "theorems": [
    "KC.Props.C33_not_enough",
    "KC.Props.C33_outcome",
    "KC.Props.C33_parts",
    "KC.Props.C33_length",
    "KC.Props.C33_no_panic"
   ],
   "note": "Any input bytes; the outcome is exactly that of the cipher on the four parts, which are unique."
  },
  {
   "property": "C34",
   "status": "proved",
   "theorems": [
    "KC.Props.C34_alone",
    "KC.Props.C34_disjoint",
    "KC.Props.C34_threads",
    "KC.Props.C34_fresh",
    "KC.Props.C34_manager",
    "KC.Props.C34_error_draws_nothing"
   ],
   "note": "Encryption alone; every manager call (creation, password change, adding, phrase generation) from any number of threads under any schedule of atomic draws: its draws are its own, disjoint from all others, and are the blob's salt and nonce or the phrase's entropy. The lock makes a draw atomic."
  },
  {
   "property": "C35",
   "status": "proved",
   "theorems": [
    "KC.Props.C35_base64",
    "KC.Props.C35_roundtrip",
    "KC.Props.C35_format",
    "KC.Props.C35_reads_any"
   ],
   "note": "Written text is valid JSON by an independent grammar and reads back equal, for every map order and every Unicode mnemonic; any other JSON rendering of the same wallet reads the same. Base64 decoding is any function that undoes encoding."
  },
  {
   "property": "C36",
   "status": "proved",
   "theorems": [
    "KC.Props.C36_v1",
    "KC.Props.C36_version",
    "KC.Props.C36_no_version",
    "KC.Props.C36_manager"
   ],
   "note": "Any JSON rendering of a version 1 wallet, and the manager's operations on it."
  },
  {
   "property": "C37",
   "status": "proved",
   "theorems": [
    "KC.Props.C37_last",
    "KC.Props.C37_written_once"
   ],
   "note": "Last entry wins for both versions; written data lists each network once."
  },
  {
   "property": "C38",
   "status": "proved",
   "theorems": [
    "KC.Props.C38_with_networks",
    "KC.Props.C38_set",
    "KC.Props.C38_new",
    "KC.Props.C38_seed_size"
   ],
   "note": "Any feature set, any request list; usize::MAX is any number from 256 up."
  },
  {
   "property": "C39",
   "status": "proved",
   "theorems": [
    "KC.Props.C39_seed_size",
    "KC.Props.C39_bounds_exist",
    "KC.Props.C39_order",
    "KC.Props.C39_words",
    "KC.Props.C39_phrases"
   ],
   "note": "Any list of factories with any bounds."
  },
  {
   "property": "C40",
   "status": "proved",
   "theorems": [
    "KC.Props.C40_open",
    "KC.Props.C40_from_seed",
    "KC.Props.C40_from_seed_succeeds",
    "KC.Props.C40_seed_size",
    "KC.Props.C40_roundtrip",
    "KC.Props.C40_builtin"
   ],
   "note": "Any factories (also custom), random output and map orders; for the built-in networks the only obstacle is Ethereum's derivation of m/44'/60'. The cipher is assumed correct."
  },
  {
   "property": "C41",
   "status": "proved",
   "theorems": [
    "KC.Props.C41_from_mnemonic",
    "KC.Props.C41_from_mnemonic_succeeds",
    "KC.Props.C41_retrieve",
    "KC.Props.C41_recoverable",
    "KC.Props.C41_keys_data"
   ],
   "note": "Any accepted text and language, password and random output; the wallet is described by its file format."
  },
  {
   "property": "C42",
   "status": "proved",
   "theorems": [
    "KC.Props.C42_reencrypts",
    "KC.Props.C42_same_wallet",
    "KC.Props.C42_outcome"
   ],
   "note": "Any blob, wallet or not."
  },
  {
   "property": "C43",
   "status": "proved",
   "theorems": [
    "KC.Props.C43_added",
    "KC.Props.C43_outcome",
    "KC.Props.C43_read_errors"
   ],
   "note": "Success described by the file format; every failure with its place in the order; errors of reading characterised."
  },
  {
   "property": "C44",
   "status": "proved",
   "theorems": [
    "KC.Props.C44_history",
    "KC.Props.C44_created",
    "KC.Props.C44_added_once"
   ],
   "note": "Any finite history of successful changes and additions by any managers with any map orders and sources, from any wallet or from a creation; a failed call returns no blob."
  },
  {
   "property": "C45",
   "status": "proved",
   "theorems": [
    "KC.Props.C45_dispatch",
    "KC.Props.C45_new",
    "KC.Props.C45_networks"
   ],
   "note": "Any keychain."
  },
  {
   "property": "C46",
   "status": "proved",
   "theorems": [
    "KC.Props.C46_fewer_networks"
   ],
   "note": "Any wallet and manager."
  },
  {
   "property": "C47",
   "status": "proved",
   "theorems": [
    "KC.Props.C47_seed",
    "KC.Props.C47_mnemonic"
   ],
   "note": "Any two managers sharing the factory, any passwords, sources and map orders."
  },
  {
   "property": "C48",
   "status": "proved",
   "theorems": [
    "KC.Props.C48_create",
    "KC.Props.C48_open_add"
   ],
   "note": "Success and contents for any two orders; opening also in behaviour."
  },
  {
   "property": "C49",
   "status": "proved",
   "theorems": [
    "KC.Props.C49_exactly_one",
    "KC.Props.C49_outcome"
   ],
   "note": "Every exported function with value and error outputs; what is written is stated against the library call behind it (C49_outcome). Caller contract: handle null or live."
  },
  {
   "property": "C50",
   "status": "proved",
   "theorems": [
    "KC.Props.C50_guard",
    "KC.Props.C50_unwinds_iff",
    "KC.Props.C50_texts",
    "KC.Props.C50_no_unwind",
    "KC.Props.C50_builtin_quiet",
    "KC.Props.C50_opened_quiet",
    "KC.Props.C50_delete",
    "KC.Props.C50_add_unwinds"
   ],
   "note": "The guard, the exact condition for an escaping panic, and that the condition does not arise for built-in networks and NUL-free outside texts. The exception is shown to happen (C50_add_unwinds)."
  },
  {
   "property": "C51",
   "status": "proved",
   "theorems": [
    "KC.Props.C51_code",
    "KC.Props.C51_range",
    "KC.Props.C51_distinct",
    "KC.Props.C51_through"
   ],
   "note": "Code table from keychain-c/src/error.rs:7-21; there is no C header in the repository."
  },
  {
   "property": "C52",
   "status": "proved",
   "theorems": [
    "KC.Props.C52_history",
    "KC.Props.C52_delete",
    "KC.Props.C52_owned",
    "KC.Props.C52_kept",
    "KC.Props.C52_kept_history",
    "KC.Props.C52_again",
    "KC.Props.C52_no_leak",
    "KC.Props.C52_deleted_handle",
    "KC.Props.C52_networks",
    "KC.Props.C52_text"
   ],
   "note": "Programs of any length over an abstract heap (no address reuse); outputs go to fresh variables. The two exceptions are proved to be undefined behaviour."
  },
  {
   "property": "C53",
   "status": "proved",
   "theorems": [
    "KC.Props.C53_network",
    "KC.Props.C53_path",
    "KC.Props.C53_language",
    "KC.Props.C53_constructors",
    "KC.Props.C53_constants"
   ],
   "note": "Conversions both ways, and the key path functions of C against the Rust ones."
  },
  {
   "property": "C54",
   "status": "proved",
   "theorems": [
    "KC.Props.C54_c_failure",
    "KC.Props.C54_c_lib",
    "KC.Props.C54_c_poisoned",
    "KC.Props.C54_c_history",
    "KC.Props.C54_failure",
    "KC.Props.C54_poisons",
    "KC.Props.C54_poisoned",
    "KC.Props.C54_history",
    "KC.Props.C54_threads"
   ],
   "note": "Library calls, histories and threads; the C functions, alone and over histories of a C program."
  },
  {
   "property": "C55",
   "status": "proved",
   "theorems": [
    "KC.Props.C55_zeroed"
   ],
   "note": "The effect of the source as written. The zeroing is a plain write before the memory is given up; that the compiler keeps it is part of the trusted base, and copies made by moves are not tracked."
  },
  {
   "property": "C56",
   "status": "proved",
   "theorems": [
    "KC.Props.C56_generated",
    "KC.Props.C56_succeeds",
    "KC.Props.C56_other_sizes"
   ],
   "note": "Any manager, language and source."
  },
  {
   "property": "C57",
   "status": "proved",
   "theorems": [
    "KC.Props.C57_crypt",
    "KC.Props.C57_wallet",
    "KC.Props.C57_history"
   ],
   "note": "The algorithms of Real/* stand in for the crates; they are checked against known answers (Real/*, Real/Vectors with the repository's BIP-39 vectors), not against the crates' source."
  },
  {
   "property": "C58",
   "status": "proved",
   "theorems": [
    "KC.Props.C58_key",
    "KC.Props.C58_loaded",
    "KC.Props.C58_wallet"
   ],
   "note": "Nonces are an arbitrary function of message, key and attempt; the crate's own choice is not modelled. Real/Known has BIP-32 test vector 2, known addresses and a known ECDSA signature."
  },
  {
   "property": "C59",
   "status": "proved",
   "theorems": [
    "KC.Props.C59_recovers_one",
    "KC.Props.C59_recovers",
    "KC.Props.C59_signer"
   ],
   "note": "Stated for every signature that sign returns (it refuses recovery ids 2 and 3)."
  },
  {
   "property": "C60",
   "status": "proved",
   "theorems": [
    "KC.Props.C60_public_keys",
    "KC.Props.C60_same_public_key"
   ],
   "note": ""
  },
  {
   "property": "C61",
   "status": "proved",
   "theorems": [
    "KC.Props.C61_public_child",
    "KC.Props.C61_private_child",
    "KC.Props.C61_determined",
    "KC.Props.C61_walk",
    "KC.Props.C61_private_walk"
   ],
   "note": "BIP-32 accepts a left half of zero; this library does not, and PubChild excludes it."
  },
  {
   "property": "C62",
   "status": "proved",
   "theorems": [
    "KC.Props.C62_json",
    "KC.Props.C62_unambiguous",
    "KC.Props.C62_envelope",
    "KC.Props.C62_v1",
    "KC.Props.C62_v2",
    "KC.Props.C62_manager"
   ],
   "note": "Both directions, for every byte sequence. Number texts with fraction or exponent are recognised but their value is not kept (no field uses one). Base64 decoding is any function that undoes encoding."
  },
  {
   "property": "C63",
   "status": "proved",
   "theorems": [
    "KC.Props.C63_group",
    "KC.Props.C63_encoding",
    "KC.Props.C63_loaded",
    "KC.Props.C63_seed",
    "KC.Props.C63_one_signature",
    "KC.Props.C63_wallet"
   ],
   "note": "The algorithms of Real/Ed25519 stand in for ed25519-bip32; checked against RFC 8032 tests 1 to 3 and a vector of the crate (Real/KnownEd). ok is any range test that accepts numbers below the order."
  },
  {
   "property": "C64",
   "status": "proved",
   "theorems": [
    "KC.Props.C64_walk",
    "KC.Props.C64_loaded",
    "KC.Props.C64_public_key",
    "KC.Props.C64_same_public_key"
   ],
   "note": ""
  },
  {
   "property": "C65",
   "status": "proved",
   "theorems": [
    "KC.Props.C65_child",
    "KC.Props.C65_determined",
    "KC.Props.C65_account"
   ],
   "note": "Derivation scheme V2 of ed25519-bip32, the one the library uses."
  },
  {
   "property": "C66",
   "status": "proved",
   "theorems": [
    "KC.Props.C66_one_tag",
    "KC.Props.C66_forgery",
    "KC.Props.C66_points",
    "KC.Props.C66_key_stream",
    "KC.Props.C66_changed_tag"
   ],
   "note": "That the secret point of an unknown password is unpredictable is a cryptographic assumption and not part of the claim."
  },
  {
   "property": "C67",
   "status": "proved",
   "theorems": [
    "KC.Props.C67_translate",
    "KC.Props.C67_one_language",
    "KC.Props.C67_chinese",
    "KC.Props.C67_english_french",
    "KC.Props.C67_seed",
    "KC.Props.C67_print",
    "KC.Props.C67_types"
   ],
   "note": "Proved for the eight word lists of the code (kernel-checked to be pairwise disjoint except English/French and the two Chinese lists)."
  },
  {
   "property": "C68",
   "status": "proved",
   "theorems": [
    "KC.Props.C68_text",
    "KC.Props.C68_inner",
    "KC.Props.C68_telling",
    "KC.Props.C68_builtin",
    "KC.Props.C68_opened",
    "KC.Props.C68_through",
    "KC.Props.C68_panic",
    "KC.Props.C68_dictionary"
   ],
   "note": "Proved for the built-in networks; a custom network may word its errors as it likes."
  },
  {
   "property": "C69",
   "status": "proved",
   "theorems": [
    "KC.Props.C69_cardano",
    "KC.Props.C69_secp",
    "KC.Props.C69_handles",
    "KC.Props.C69_returns",
    "KC.Props.C69_phrase"
   ],
   "note": "Proved for the model of the C interface (memory as blocks with layouts), with the actual algorithms for the parts on signatures."
  },
  {
   "property": "C70",
   "status": "proved",
   "theorems": [
    "KC.Props.C70_same",
    "KC.Props.C70_c",
    "KC.Props.C70_filled",
    "KC.Props.C70_long",
    "KC.Props.C70_real"
   ],
   "note": "For all hashes the equivalence is exact; for SHA-512 itself only the direction \"these are the same\" is proved, since the other would need its collision resistance."
  },
  {
   "property": "C71",
   "status": "proved",
   "theorems": [
    "KC.Props.C71_lists",
    "KC.Props.C71_determined",
    "KC.Props.C71_phrase"
   ],
   "note": "The eight hashes were taken from the files of /repo; that they are those of the published lists is from knowledge of these lists."
  },
  {
   "property": "C72",
   "status": "proved",
   "theorems": [
    "KC.Props.C72_forms",
    "KC.Props.C72_decompress",
    "KC.Props.C72_unique",
    "KC.Props.C72_wallet",
    "KC.Props.C72_hashes"
   ],
   "note": ""
  },
  {
   "property": "C73",
   "status": "proved",
   "theorems": [
    "KC.Props.C73_decode",
    "KC.Props.C73_check",
    "KC.Props.C73_key",
    "KC.Props.C73_wallet",
    "KC.Props.C73_vector"
   ],
   "note": "decoding of RFC 8032 written out and proved right; verification with the public key bytes alone equals that of the key object; end to end through a wallet; the second test of RFC 8032 evaluated in the kernel"
  },
  {
   "property": "C74",
   "status": "proved",
   "theorems": [
    "KC.Props.C74_sign",
    "KC.Props.C74_one",
    "KC.Props.C74_key",
    "KC.Props.C74_no_repeat",
    "KC.Props.C74_leak",
    "KC.Props.C74_vector"
   ],
   "note": "RFC 6979 with HMAC-SHA256 written out; signatures of key objects characterised as the RFC 6979 ones; repetition of a nonce reduced to a collision; the formula for the secret from a repeated nonce; the \"Satoshi Nakamoto\" example evaluated in the kernel"
  },
  {
   "property": "C75",
   "status": "proved",
   "theorems": [
    "KC.Props.C75_call",
    "KC.Props.C75_phrase",
    "KC.Props.C75_count"
   ],
   "note": "Counting is over the drawn bytes; the source itself is an arbitrary stream."
  },
  {
   "property": "C76",
   "status": "proved",
   "theorems": [
    "KC.Props.C76_seed",
    "KC.Props.C76_phrase",
    "KC.Props.C76_change",
    "KC.Props.C76_hidden_seed",
    "KC.Props.C76_hidden_phrase",
    "KC.Props.C76_numbers",
    "KC.Props.C76_history",
    "KC.Props.C76_hidden_history"
   ],
   "note": "For any AEAD that keeps lengths; the sizes of custom factories enter by the lengths of their keys."
  },
  {
   "property": "C77",
   "status": "proved",
   "theorems": [
    "KC.Props.C77_words",
    "KC.Props.C77_seed",
    "KC.Props.C77_generated",
    "KC.Props.C77_refused"
   ],
   "note": "Quick check of UAX #15, exact for NFKD; tables of Unicode 14 (trusted data)."
  },
  {
   "property": "C78",
   "status": "proved",
   "theorems": [
    "KC.Props.C78_open",
    "KC.Props.C78_panics",
    "KC.Props.C78_programs"
   ],
   "note": ""
  },
  {
   "property": "C79",
   "status": "proved",
   "theorems": [
    "KC.Props.C79_parent",
    "KC.Props.C79_path",
    "KC.Props.C79_account",
    "KC.Props.C79_cardano",
    "KC.Props.C79_cardano_account"
   ],
   "note": ""
  },
  {
   "property": "C80",
   "status": "proved",
   "theorems": [
    "KC.Props.C80_same",
    "KC.Props.C80_only",
    "KC.Props.C80_twin",
    "KC.Props.C80_cardano",
    "KC.Props.C80_cardano_range"
   ],
   "note": "That the crates verify as SEC 1, 4.1.4 and RFC 8032, 5.1.7 say (without a test for the lower s; the range test for Cardano is a parameter) is part of the trusted base."
  },
  {
   "property": "C81",
   "status": "proved",
   "theorems": [
    "KC.Props.C81_shared",
    "KC.Props.C81_cardano",
    "KC.Props.C81_wallet"
   ],
   "note": ""
  },
  {
   "property": "C82",
   "status": "proved",
   "theorems": [
    "KC.Props.C82_sha256",
    "KC.Props.C82_sha512",
    "KC.Props.C82_keccak256",
    "KC.Props.C82_ripemd160",
    "KC.Props.C82_hmac",
    "KC.Props.C82_hmac256",
    "KC.Props.C82_pbkdf2",
    "KC.Props.C82_seals",
    "KC.Props.C82_opens",
    "KC.Props.C82_format",
    "KC.Props.C82_written",
    "KC.Props.C82_seed",
    "KC.Props.C82_vectors_sha2",
    "KC.Props.C82_vectors_keccak",
    "KC.Props.C82_vectors_ripemd",
    "KC.Props.C82_vectors_hmac",
    "KC.Props.C82_vectors_chacha"
   ],
   "note": ""
  },
  {
   "property": "C83",
   "status": "proved",
   "theorems": [
    "KC.Props.C83_secp",
    "KC.Props.C83_cardano",
    "KC.Props.C83_seed",
    "KC.Props.C83_phrase",
    "KC.Props.C83_determined",
    "KC.Props.C83_case",
    "KC.Props.C83_case_seed",
    "KC.Props.C83_case_phrase"
   ],
   "note": "Stated in Spec/Standard.lean with relations of the documents and Mathlib's groups of points only. Bitcoin and Ethereum paths with an exceptional step are excluded here (C26 says what happens at them). Nonces of ECDSA are arbitrary (C74 fixes them); messages for Cardano are below 2^120 bytes, the phrase below 2^123. The cases go from the text of a phrase to a known public key."
  },
  {
   "property": "C84",
   "status": "proved",
   "theorems": [
    "KC.Props.C84_same",
    "KC.Props.C84_crate",
    "KC.Props.C84_long",
    "KC.Props.C84_case"
   ],
   "note": "For all hashes the equivalence is exact; for SHA-512 itself only the direction \"these are the same\" is proved, since the other would need its collision resistance."
  },
  {
   "property": "C85",
   "status": "proved",
   "theorems": [
    "KC.Props.C85_password",
    "KC.Props.C85_password_c",
    "KC.Props.C85_word",
    "KC.Props.C85_count",
    "KC.Props.C85_texts",
    "KC.Props.C85_phrase_c",
    "KC.Props.C85_printed",
    "KC.Props.C85_case"
   ],
   "note": "For every `Env`. `OpensWith` is the library call itself with any result; that a wrong password does not open is C19 and C82. The C form holds for every state of memory. Display and Debug of Entropy and Seed are in Model/Bip39Text.lean (see also C67); the derived Debug output of other types is not modelled."
  },
  {
   "property": "C86",
   "status": "proved",
   "theorems": [
    "KC.Props.C86_phrase",
    "KC.Props.C86_seed",
    "KC.Props.C86_case",
    "KC.Props.C86_case_phrase"
   ],
   "note": "Bitcoin and Ethereum paths with an exceptional step are excluded (C26 says what happens there). Programs follow the rule of C52. ECDSA nonces are arbitrary (C74), so that signing is stated for what is handed out; Cardano signing always succeeds. Messages for Cardano are below 2^120 bytes, phrases below 2^123. The cases start from a seed and from a phrase."
  },
  {
   "property": "C87",
   "status": "proved",
   "theorems": [
    "KC.Props.C87_secp_data",
    "KC.Props.C87_cardano_data",
    "KC.Props.C87_written",
    "KC.Props.C87_read",
    "KC.Props.C87_plain",
    "KC.Props.C87_unambiguous",
    "KC.Props.C87_opens",
    "KC.Props.C87_old",
    "KC.Props.C87_case",
    "KC.Props.C87_old_case"
   ],
   "note": "Stated in Spec/Archive.lean over the relations of C82 and C83 and the JSON grammar of C62, without the model's functions. The password is below 2^123 bytes in UTF-8, the file below 2^64, phrases below 2^123. C87_old is about files of version 1. The cases open texts that the library did not write, as version 2 and as version 1."
  },
  {
   "property": "C88",
   "status": "proved",
   "theorems": [
    "KC.Props.C88_alone",
    "KC.Props.C88_no_panic",
    "KC.Props.C88_progress",
    "KC.Props.C88_disjoint",
    "KC.Props.C88_randomness",
    "KC.Props.C88_lineage",
    "KC.Props.C88_wallet",
    "KC.Props.C88_branches",
    "KC.Props.C88_case"
   ],
   "note": "A call is atomic between its draws, since it touches no other shared state (the methods take &self); a draw is atomic since it holds the lock. C34 has the same for fixed lists of calls."
  },
  {
   "property": "C89",
   "status": "proved",
   "theorems": [
    "KC.Props.C89_type",
    "KC.Props.C89_string",
    "KC.Props.C89_unvalidated",
    "KC.Props.C89_errors",
    "KC.Props.C89_orders",
    "KC.Props.C89_entropy_order",
    "KC.Props.C89_total",
    "KC.Props.C89_phrase_order",
    "KC.Props.C89_case",
    "KC.Props.C89_phrase_case"
   ],
   "note": "The text form is that of serde_json, with the code that serde_derive generates as described in Model/Derived.lean; other formats are not modelled. The MnemonicString part is a finding: C89_unvalidated shows that the documented invariant does not hold for values that were read."
  },
  {
   "property": "C90",
   "status": "proved",
   "theorems": [
    "KC.Props.C90_written_seed",
    "KC.Props.C90_written_phrase",
    "KC.Props.C90_opens",
    "KC.Props.C90_old",
    "KC.Props.C90_shown",
    "KC.Props.C90_case"
   ],
   "note": "The password passed to C has to be UTF-8 for a file to open with it; sizes as in C87. Builds with any of the networks may take part, each program with its own."
  },
  {
   "property": "C91",
   "status": "proved",
   "theorems": [
    "KC.Props.C91_small",
    "KC.Props.C91_debug",
    "KC.Props.C91_release",
    "KC.Props.C91_mistaken",
    "KC.Props.C91_reach",
    "KC.Props.C91_case"
   ],
   "note": "The width of usize is a parameter; the theorems for slices hold without the limit isize::MAX, so they include it. Buffers the library itself makes are at most 33 bytes."
  },
  {
   "property": "C92",
   "status": "proved",
   "theorems": [
    "KC.Props.C92_text",
    "KC.Props.C92_constructors",
    "KC.Props.C92_program",
    "KC.Props.C92_parting",
    "KC.Props.C92_case"
   ],
   "note": "The two builds differ in the profile alone: layouts and the orders of hash maps are taken as the same. Lengths near the limit of usize are in C91."
  },
  {
   "property": "C93",
   "status": "proved",
   "theorems": [
    "KC.Props.C93_xor",
    "KC.Props.C93_read",
    "KC.Props.C93_forge",
    "KC.Props.C93_repeat",
    "KC.Props.C93_calls",
    "KC.Props.C93_phrases",
    "KC.Props.C93_case"
   ],
   "note": ""
  },
  {
   "property": "C94",
   "status": "proved",
   "theorems": [
    "KC.Props.C94_features",
    "KC.Props.C94_phrase",
    "KC.Props.C94_open",
    "KC.Props.C94_add",
    "KC.Props.C94_case"
   ],
   "note": ""
  },
  {
   "property": "C95",
   "status": "proved",
   "theorems": [
    "KC.Props.C95_word",
    "KC.Props.C95_least",
    "KC.Props.C95_phrase",
    "KC.Props.C95_unspaced",
    "KC.Props.C95_spaces",
    "KC.Props.C95_letter",
    "KC.Props.C95_mistaken",
    "KC.Props.C95_case"
   ],
   "note": ""
  },
  {
   "property": "C96",
   "status": "proved",
   "theorems": [
    "KC.Props.C96_block",
    "KC.Props.C96_count",
    "KC.Props.C96_mistakes",
    "KC.Props.C96_words",
    "KC.Props.C96_restores",
    "KC.Props.C96_case"
   ],
   "note": ""
  },
  {
   "property": "C97",
   "status": "proved",
   "theorems": [
    "KC.Props.C97_text",
    "KC.Props.C97_password",
    "KC.Props.C97_added",
    "KC.Props.C97_forgets",
    "KC.Props.C97_history",
    "KC.Props.C97_made",
    "KC.Props.C97_case"
   ],
   "note": ""
  },
  {
   "property": "C98",
   "status": "proved",
   "theorems": [
    "KC.Props.C98_keys",
    "KC.Props.C98_exists",
    "KC.Props.C98_chosen",
    "KC.Props.C98_answer",
    "KC.Props.C98_change",
    "KC.Props.C98_case"
   ],
   "note": "Exact criterion for existence; contents of choice one after the other."
  },
  {
   "property": "C99",
   "status": "proved",
   "theorems": [
    "KC.Props.C99_exact",
    "KC.Props.C99_publics",
    "KC.Props.C99_hashes",
    "KC.Props.C99_twin",
    "KC.Props.C99_shared",
    "KC.Props.C99_cardano",
    "KC.Props.C99_cardano_messages",
    "KC.Props.C99_case_shared",
    "KC.Props.C99_case_twin"
   ],
   "note": "Exact for r not below p - n; bound of four otherwise."
  },
  {
   "property": "C100",
   "status": "proved",
   "theorems": [
    "KC.Props.C100_any",
    "KC.Props.C100_open",
    "KC.Props.C100_phrase",
    "KC.Props.C100_add",
    "KC.Props.C100_mixed",
    "KC.Props.C100_case"
   ],
   "note": ""
  },
  {
   "property": "C101",
   "status": "proved",
   "theorems": [
    "KC.Props.C101_decrypt",
    "KC.Props.C101_read",
    "KC.Props.C101_encrypt",
    "KC.Props.C101_change",
    "KC.Props.C101_create",
    "KC.Props.C101_add",
    "KC.Props.C101_generate",
    "KC.Props.C101_one",
    "KC.Props.C101_case"
   ],
   "note": ""
  },
  {
   "property": "C102",
   "status": "proved",
   "theorems": [
    "KC.Props.C102_agree",
    "KC.Props.C102_catch_up",
    "KC.Props.C102_same",
    "KC.Props.C102_old_copy",
    "KC.Props.C102_case"
   ],
   "note": ""
  },
  {
   "property": "C103",
   "status": "proved",
   "theorems": [
    "KC.Props.C103_cut",
    "KC.Props.C103_default",
    "KC.Props.C103_accept",
    "KC.Props.C103_refuse",
    "KC.Props.C103_text",
    "KC.Props.C103_cut_back",
    "KC.Props.C103_round",
    "KC.Props.C103_empty",
    "KC.Props.C103_spellings",
    "KC.Props.C103_index",
    "KC.Props.C103_case_japanese",
    "KC.Props.C103_case_chinese",
    "KC.Props.C103_case_overlap",
    "KC.Props.C103_case_spellings",
    "KC.Props.C103_case_index"
   ],
   "note": ""
  },
  {
   "property": "C104",
   "status": "proved",
   "theorems": [
    "KC.Props.C104_fixed",
    "KC.Props.C104_secp",
    "KC.Props.C104_cardano",
    "KC.Props.C104_refused",
    "KC.Props.C104_any",
    "KC.Props.C104_any_cardano",
    "KC.Props.C104_cross",
    "KC.Props.C104_message",
    "KC.Props.C104_case"
   ],
   "note": ""
  },
  {
   "property": "C105",
   "status": "proved",
   "theorems": [
    "KC.Props.C105_opening",
    "KC.Props.C105_rare",
    "KC.Props.C105_phrase",
    "KC.Props.C105_sharp",
    "KC.Props.C105_threads"
   ],
   "note": ""
  },
  {
   "property": "C106",
   "status": "proved",
   "theorems": [
    "KC.Props.C106_child",
    "KC.Props.C106_counts",
    "KC.Props.C106_rare",
    "KC.Props.C106_child_inj",
    "KC.Props.C106_child_onto",
    "KC.Props.C106_root",
    "KC.Props.C106_values",
    "KC.Props.C106_cardano"
   ],
   "note": ""
  },
  {
   "property": "C107",
   "status": "proved",
   "theorems": [
    "KC.Props.C107_language",
    "KC.Props.C107_count",
    "KC.Props.C107_length",
    "KC.Props.C107_passwords",
    "KC.Props.C107_wallets"
   ],
   "note": ""
  },
  {
   "property": "C108",
   "status": "proved",
   "theorems": [
    "KC.Props.C108_cardano",
    "KC.Props.C108_ecdsa",
    "KC.Props.C108_share"
   ],
   "note": ""
  },
  {
   "property": "C109",
   "status": "proved",
   "theorems": [
    "KC.Props.C109_secp",
    "KC.Props.C109_cardano",
    "KC.Props.C109_bitcoin",
    "KC.Props.C109_ethereum",
    "KC.Props.C109_share"
   ],
   "note": ""
  },
  {
   "property": "C110",
   "status": "proved",
   "theorems": [
    "KC.Props.C110_phrases",
    "KC.Props.C110_phrase_share",
    "KC.Props.C110_paths",
    "KC.Props.C110_constructors"
   ],
   "note": ""
  },
  {
   "property": "C111",
   "status": "proved",
   "theorems": [
    "KC.Props.C111_reveals",
    "KC.Props.C111_retrieve",
    "KC.Props.C111_own"
   ],
   "note": ""
  },
  {
   "property": "C112",
   "status": "proved",
   "theorems": [
    "KC.Props.C112_safe",
    "KC.Props.C112_tidy",
    "KC.Props.C112_lost",
    "KC.Props.C112_copies"
   ],
   "note": ""
  },
  {
   "property": "C113",
   "status": "proved",
   "theorems": [
    "KC.Props.C113_stale",
    "KC.Props.C113_handle",
    "KC.Props.C113_copies"
   ],
   "note": ""
  },
  {
   "property": "C114",
   "status": "proved",
   "theorems": [
    "KC.Props.C114_body",
    "KC.Props.C114_panics",
    "KC.Props.C114_quiet",
    "KC.Props.C114_loud",
    "KC.Props.C114_phrase"
   ],
   "note": ""
  },
  {
   "property": "C115",
   "status": "proved",
   "theorems": [
    "KC.Props.C115_rule",
    "KC.Props.C115_rule_reuse",
    "KC.Props.C115_networks"
   ],
   "note": ""
  },
  {
   "property": "C116",
   "status": "proved",
   "theorems": [
    "KC.Props.C116_text",
    "KC.Props.C116_phrase"
   ],
   "note": ""
  }
 ]
}