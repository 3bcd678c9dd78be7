{
 "claims": [
  {
   "property": "C01",
   "status": "proved",
   "theorems": [
    "C01_to_hex_writes_spec",
    "C01_hex_roundtrip",
    "C01_hex_case_insensitive"
   ],
   "note": ""
  },
  {
   "property": "C02",
   "status": "proved",
   "theorems": [
    "C02_from_hex_any",
    "C02_from_hex_longest"
   ],
   "note": ""
  },
  {
   "property": "C03",
   "status": "proved",
   "theorems": [
    "C03_hex_dump"
   ],
   "note": ""
  },
  {
   "property": "C04",
   "status": "proved",
   "theorems": [
    "C04_to_base64_rfc4648"
   ],
   "note": ""
  },
  {
   "property": "C05",
   "status": "proved",
   "theorems": [
    "C05_to_base64_urlsafe_rfc4648",
    "C05_urlsafe_alphabet"
   ],
   "note": ""
  },
  {
   "property": "C06",
   "status": "proved",
   "theorems": [
    "C06_base64_roundtrip",
    "C06_base64_urlsafe_roundtrip"
   ],
   "note": ""
  },
  {
   "property": "C07",
   "status": "proved",
   "theorems": [
    "C07_from_base64_safe",
    "C07_from_base64_length_defined",
    "C07_from_base64_urlsafe_safe"
   ],
   "note": ""
  },
  {
   "property": "C08",
   "status": "proved",
   "theorems": [
    "C08_base64_decode_content",
    "C08_base64_urlsafe_decode_content",
    "C08_base64_accepts_iff",
    "C08_base64_urlsafe_accepts_iff"
   ],
   "note": ""
  },
  {
   "property": "C09",
   "status": "proved",
   "theorems": [
    "C09_to_base32_rfc4648",
    "C09_to_base32_raw"
   ],
   "note": ""
  },
  {
   "property": "C10",
   "status": "proved",
   "theorems": [
    "C10_base32_roundtrip",
    "C10_base32_case_insensitive"
   ],
   "note": ""
  },
  {
   "property": "C11",
   "status": "partial",
   "theorems": [
    "C11_violated_raw_roundtrip",
    "C11_raw_roundtrip_partial",
    "C11_violated_reads_beyond",
    "C11_violated_writes_beyond",
    "C11_raw_roundtrip_iff_partial"
   ],
   "note": "Violated by the code (strchr over raw data): exact condition (round trip independent of the following memory iff a group is zero), over-read and over-write for all other data, and the part that holds."
  },
  {
   "property": "C12",
   "status": "partial",
   "theorems": [
    "C12_violated_arbitrary",
    "C12_from_base32_partial",
    "C12_undefined_iff_partial",
    "C12_violated_negative",
    "C12_from_base32_defined_partial",
    "C12_stops_at_illegal_group"
   ],
   "note": "Violated by the code (unvalidated last group, signed char index): exact condition of undefined behaviour, counterexamples, full description of every defined run."
  },
  {
   "property": "C13",
   "status": "proved",
   "theorems": [
    "C13_to_base58_canonical",
    "C13_digits_canonical",
    "C13_to_base58_any"
   ],
   "note": "Exact: canonical text up to 1,556,147,570 significant bytes, undefined (size_t to int) for every larger input."
  },
  {
   "property": "C14",
   "status": "partial",
   "theorems": [
    "C14_to_base58_safe_partial",
    "C14_violated_huge"
   ],
   "note": "Violated by the code only for more than 1,556,147,570 significant bytes (int overflow of the work size, proved for every such input); holds for all smaller inputs."
  },
  {
   "property": "C15",
   "status": "partial",
   "theorems": [
    "C15_base58_roundtrip_partial",
    "C15_base58_roundtrip_upto_2MB_partial",
    "C15_violated_long"
   ],
   "note": "Violated by the code for texts of more than 2,929,718 digits: (int)(str_end-str)*733 overflows in the decoder (proved for every such buffer, and every buffer with 2,200,000 significant bytes is one); the round trip holds for all others."
  },
  {
   "property": "C16",
   "status": "proved",
   "theorems": [
    "C16_from_base58_any",
    "C16_reencode",
    "C16_from_base58_total",
    "C16_from_base58_sound"
   ],
   "note": "Exact on every NUL-terminated string: the result is the specified one, or undefined exactly for TooLong texts, texts scanned up to a negative char (signed char), and too small buffers."
  },
  {
   "property": "C17",
   "status": "partial",
   "theorems": [
    "C17_violated_many_ones",
    "C17_from_base58_fits_partial",
    "C17_from_base58_fits_strlen",
    "C17_from_base58_undefined_iff_partial"
   ],
   "note": "Violated by the code (four or more leading '1'): counterexample and the part that holds."
  },
  {
   "property": "C18",
   "status": "partial",
   "theorems": [
    "C18_base58check_roundtrip_partial",
    "C18_base58check_roundtrip_upto_1MB_partial",
    "C18_violated_long"
   ],
   "note": "Same limit as C15: violated for every payload with 2,200,000 significant bytes; the round trip holds whenever the text is not TooLong (in particular up to 1 MB)."
  },
  {
   "property": "C19",
   "status": "proved",
   "theorems": [
    "C19_from_base58check_total",
    "C19_base58check_sound"
   ],
   "note": "Exact on every NUL-terminated string; soundness has no hypothesis on length, charset or buffer."
  },
  {
   "property": "C20",
   "status": "proved",
   "theorems": [
    "C20_varint_roundtrip",
    "C20_varint_stream"
   ],
   "note": ""
  },
  {
   "property": "C21",
   "status": "proved",
   "theorems": [
    "C21_encode_varint",
    "C21_length_monotone"
   ],
   "note": ""
  },
  {
   "property": "C22",
   "status": "proved",
   "theorems": [
    "C22_decode_varint_any"
   ],
   "note": ""
  },
  {
   "property": "C23",
   "status": "partial",
   "theorems": [
    "C23_violated_overflow",
    "C23_varint_unique_partial",
    "C23_varint_unique_upto_nine"
   ],
   "note": "Violated by the code (10-byte overflow): counterexample and the part that holds."
  },
  {
   "property": "C24",
   "status": "partial",
   "theorems": [
    "C24_violated_int64_min",
    "C24_encode_zigzag_exact",
    "C24_decode_zigzag_any",
    "C24_zigzag_roundtrip_partial",
    "C24_zigzag_failure_keeps_out"
   ],
   "note": "Violated by the code at INT64_MIN: counterexample; every other value proved."
  },
  {
   "property": "C25",
   "status": "proved",
   "theorems": [
    "C25_sha256"
   ],
   "note": ""
  },
  {
   "property": "C26",
   "status": "proved",
   "theorems": [
    "C26_sha512"
   ],
   "note": ""
  },
  {
   "property": "C27",
   "status": "proved",
   "theorems": [
    "C27_sha1"
   ],
   "note": ""
  },
  {
   "property": "C28",
   "status": "proved",
   "theorems": [
    "C28_ripemd160"
   ],
   "note": ""
  },
  {
   "property": "C29",
   "status": "proved",
   "theorems": [
    "C29_hmac_sha256"
   ],
   "note": ""
  },
  {
   "property": "C30",
   "status": "proved",
   "theorems": [
    "C30_hmac_sha512"
   ],
   "note": ""
  },
  {
   "property": "C31",
   "status": "proved",
   "theorems": [
    "C31_hash256_d64",
    "C31_hash256_d64_digests"
   ],
   "note": ""
  },
  {
   "property": "C32",
   "status": "proved",
   "theorems": [
    "C32_compositions",
    "C32_bip32_hash"
   ],
   "note": ""
  },
  {
   "property": "C33",
   "status": "proved",
   "theorems": [
    "C33_helpers",
    "C33_helpers64",
    "C33_read_write",
    "C33_hashes_host_independent"
   ],
   "note": ""
  },
  {
   "property": "C34",
   "status": "proved",
   "theorems": [
    "C34_bech32_roundtrip"
   ],
   "note": ""
  },
  {
   "property": "C35",
   "status": "proved",
   "theorems": [
    "C35_bech32_sound",
    "C35_bech32_complete"
   ],
   "note": ""
  },
  {
   "property": "C36",
   "status": "proved",
   "theorems": [
    "C36_burst_detected"
   ],
   "note": ""
  },
  {
   "property": "C37",
   "status": "proved",
   "theorems": [
    "C37_bech32_decode_safe"
   ],
   "note": ""
  },
  {
   "property": "C38",
   "status": "proved",
   "theorems": [
    "C38_pubkey_roundtrip",
    "C38_script_roundtrip"
   ],
   "note": ""
  },
  {
   "property": "C39",
   "status": "partial",
   "theorems": [
    "C39_keyhash_roundtrip_partial",
    "C39_scripthash_roundtrip_partial",
    "C39_violated_by_stack_contents",
    "C39_violated_mistaken_for_base58"
   ],
   "note": "Violated by the code (uninitialised stack bytes; a Bech32 text that is also Base58Check): counterexamples and the part that holds."
  },
  {
   "property": "C40",
   "status": "partial",
   "theorems": [
    "C40_witness_unknown_roundtrip_partial",
    "C40_violated_by_stack_contents"
   ],
   "note": "Violated by the code (uninitialised stack bytes): counterexample and the part that holds."
  },
  {
   "property": "C41",
   "status": "proved",
   "theorems": [
    "C41_base58_encoders",
    "C41_witness_v0_encoders",
    "C41_witness_unknown_encoder",
    "C41_witness_length"
   ],
   "note": ""
  },
  {
   "property": "C42",
   "status": "partial",
   "theorems": [
    "C42_base58_networks",
    "C42_witness_v0_networks",
    "C42_witness_unknown_networks_partial",
    "C42_violated_testnet_witness_on_mainnet",
    "C42_ext_networks",
    "C42_wif_networks"
   ],
   "note": "Violated by the code for witness versions 1..16 (a testnet text that is also Base58Check of mainnet): counterexample; every other case proved."
  },
  {
   "property": "C43",
   "status": "partial",
   "theorems": [
    "C43_decode_within_partial",
    "C43_decode_within_usual_partial",
    "C43_violated_negative",
    "C43_violated_leading_ones"
   ],
   "note": "Violated by the code (leading '1', negative characters where char is signed, strings too long for int): exact condition for defined behaviour, counterexamples."
  },
  {
   "property": "C44",
   "status": "partial",
   "theorems": [
    "C44_not_malleable_partial",
    "C44_violated_surplus_group",
    "C44_violated_padding"
   ],
   "note": "Violated by the code (padding, surplus group): counterexamples; proved for all strings obeying BIP 173's padding rule, with no bound on characters or lengths."
  },
  {
   "property": "C45",
   "status": "proved",
   "theorems": [
    "C45_key_to_string",
    "C45_wif_roundtrip"
   ],
   "note": ""
  },
  {
   "property": "C46",
   "status": "partial",
   "theorems": [
    "C46_from_string_spec_partial",
    "C46_violated_undefined",
    "C46_undefined_iff_partial",
    "C46_violated_overrun",
    "C46_violated_witness",
    "C46_from_string_sound"
   ],
   "note": "Soundness proved for all strings. Safety violated by the code (overrun of the local array; negative characters where char is signed; strings too long for int): exact condition of undefined behaviour, and full specification otherwise."
  },
  {
   "property": "C47",
   "status": "proved",
   "theorems": [
    "C47_key_encode",
    "C47_der_roundtrip",
    "C47_invalid_key"
   ],
   "note": ""
  },
  {
   "property": "C48",
   "status": "proved",
   "theorems": [
    "C48_key_decode_spec",
    "C48_key_decode_safe"
   ],
   "note": ""
  },
  {
   "property": "C49",
   "status": "proved",
   "theorems": [
    "C49_signature_decode_spec",
    "C49_strict"
   ],
   "note": ""
  },
  {
   "property": "C50",
   "status": "proved",
   "theorems": [
    "C50_signature_decode_safe"
   ],
   "note": ""
  },
  {
   "property": "C51",
   "status": "proved",
   "theorems": [
    "C51_derivation_commutes",
    "C51_paths_commute"
   ],
   "note": ""
  },
  {
   "property": "C52",
   "status": "proved",
   "theorems": [
    "C52_key_derive",
    "C52_pubkey_derive",
    "C52_pubkey_derive_bad",
    "C52_exkey_derive",
    "C52_expubkey_derive"
   ],
   "note": ""
  },
  {
   "property": "C53",
   "status": "proved",
   "theorems": [
    "C53_encode_layout",
    "C53_roundtrip",
    "C53_decode_faithful"
   ],
   "note": ""
  },
  {
   "property": "C54",
   "status": "partial",
   "theorems": [
    "C54_to_string",
    "C54_exkey_from_string_spec_partial",
    "C54_exkey_violated_undefined",
    "C54_exkey_undefined_iff_partial",
    "C54_exkey_violated_overrun",
    "C54_exkey_from_string_sound",
    "C54_expubkey_from_string_spec_partial",
    "C54_expubkey_violated_undefined",
    "C54_expubkey_undefined_iff_partial",
    "C54_expubkey_violated_overrun",
    "C54_expubkey_from_string_sound",
    "C54_roundtrip",
    "C54_violated_witness"
   ],
   "note": "Round trip and soundness of every defined run proved for all strings; safety violated by the code (overrun of the local array; negative characters; too long): exact condition, and full specification otherwise."
  },
  {
   "property": "C55",
   "status": "proved",
   "theorems": [
    "C55_sign_low_r"
   ],
   "note": ""
  },
  {
   "property": "C56",
   "status": "proved",
   "theorems": [
    "C56_key_new_valid",
    "C56_first_valid"
   ],
   "note": ""
  },
  {
   "property": "C57",
   "status": "proved",
   "theorems": [
    "C57_assertions",
    "C57_clean",
    "C57_ndebug_no_double_free",
    "C57_ndebug_leak"
   ],
   "note": ""
  },
  {
   "property": "C58",
   "status": "partial",
   "theorems": [
    "C58_full_read_partial",
    "C58_returns_only_after_delivery",
    "C58_errors_are_fatal",
    "C58_no_open",
    "C58_violated_short_read",
    "C58_violated_witness"
   ],
   "note": "Violated by the code (short reads): counterexample; full reads proved; errors always fatal proved."
  },
  {
   "property": "C59",
   "status": "proved",
   "theorems": [
    "C59_cleanse",
    "C59_no_trace",
    "C59_cleanse_msvc"
   ],
   "note": ""
  },
  {
   "property": "C60",
   "status": "proved",
   "theorems": [
    "C60_keyids",
    "C60_fingerprints"
   ],
   "note": ""
  },
  {
   "property": "C61",
   "status": "proved",
   "theorems": [
    "C61_master_key"
   ],
   "note": ""
  },
  {
   "property": "C62",
   "status": "partial",
   "theorems": [
    "C62_violated_depth_wraps",
    "C62_depth_partial"
   ],
   "note": "Violated by the code at depth 255: counterexample; every other depth proved."
  },
  {
   "property": "C63",
   "status": "partial",
   "theorems": [
    "C63_violated_invalid_secret",
    "C63_violated_invalid_public",
    "C63_violated_pad_byte",
    "C63_valid_partial"
   ],
   "note": "Violated by the code (no validity checks): counterexamples; which texts are accepted is C54."
  },
  {
   "property": "C64",
   "status": "proved",
   "theorems": [
    "C64_calls"
   ],
   "note": ""
  },
  {
   "property": "C65",
   "status": "proved",
   "theorems": [
    "C65_sign_verify",
    "C65_sign_send_verify"
   ],
   "note": ""
  },
  {
   "property": "C66",
   "status": "proved",
   "theorems": [
    "C66_verify_exact",
    "C66_both_forms",
    "C66_zero_refused"
   ],
   "note": ""
  },
  {
   "property": "C67",
   "status": "proved",
   "theorems": [
    "C67_pubkey_roundtrip",
    "C67_pubkey_decode_exact",
    "C67_pubkey_decode_total"
   ],
   "note": ""
  },
  {
   "property": "C68",
   "status": "proved",
   "theorems": [
    "C68_signature_roundtrip"
   ],
   "note": ""
  },
  {
   "property": "C69",
   "status": "proved",
   "theorems": [
    "C69_sign_sound",
    "C69_sign_complete",
    "C69_sign_deterministic"
   ],
   "note": ""
  },
  {
   "property": "C70",
   "status": "proved",
   "theorems": [
    "C70_four_errors_detected"
   ],
   "note": ""
  },
  {
   "property": "C71",
   "status": "partial",
   "theorems": [
    "C71_hashes_wipe",
    "C71_hmac_wipes_partial",
    "C71_base58_wipes",
    "C71_base58_check_wipes",
    "C71_to_string_wipes",
    "C71_derivation_wipes_partial",
    "C71_init_wipes",
    "C71_violated_hmac_key",
    "C71_violated_key_from_string",
    "C71_exkey_from_string_wipes_partial",
    "C71_violated_exkey_from_string",
    "C71_violated_exkey_other_network"
   ],
   "note": "Violated by the code (the padded HMAC key, the payload in fingera_btc_key_from_string, the payload in fingera_exkey_from_string on refusal): counterexamples for all inputs; every other temporary proved wiped on every path."
  },
  {
   "property": "C72",
   "status": "proved",
   "theorems": [
    "C72_base58_no_leak",
    "C72_base58_check_no_leak",
    "C72_address_no_leak",
    "C72_key_text_no_leak",
    "C72_log_faithful"
   ],
   "note": ""
  },
  {
   "property": "C73",
   "status": "proved",
   "theorems": [
    "C73_base58_addresses",
    "C73_witness_addresses",
    "C73_secret_keys",
    "C73_extended_keys"
   ],
   "note": ""
  },
  {
   "property": "C74",
   "status": "partial",
   "theorems": [
    "C74_windows_fills_partial",
    "C74_violated_large_request",
    "C74_violated_witness"
   ],
   "note": "Violated by the code for requests of 2^32 bytes and more (the size is cut to 32 bits): counterexample; every smaller request proved."
  },
  {
   "property": "C75",
   "status": "proved",
   "theorems": [
    "C75_unix_closes",
    "C75_windows_closes"
   ],
   "note": ""
  },
  {
   "property": "C76",
   "status": "partial",
   "theorems": [
    "C76_keys_are_no_addresses",
    "C76_others_are_no_extended_keys",
    "C76_addresses_are_no_secret_keys_partial",
    "C76_violated_extended_key_as_secret_key"
   ],
   "note": "Violated by fingera_btc_key_from_string for the text of any extended key (82 bytes into its array of 40); every other pair of kinds proved."
  },
  {
   "property": "C77",
   "status": "proved",
   "theorems": [
    "C77_alone",
    "C77_threads_safe",
    "C77_uninit_must_wait",
    "C77_init_must_wait",
    "C77_init_uninit_race"
   ],
   "note": ""
  },
  {
   "property": "C78",
   "status": "proved",
   "theorems": [
    "C78_overwriting_decoders",
    "C78_roundtrips_in_place",
    "C78_output_behind_text_differs"
   ],
   "note": ""
  },
  {
   "property": "C79",
   "status": "partial",
   "theorems": [
    "C79_public_in_place",
    "C79_public_in_place_bip32",
    "C79_private_in_place_partial",
    "C79_private_in_place_bip32_partial",
    "C79_paths_in_place_partial",
    "C79_violated_overlapping_memcpy"
   ],
   "note": "Public keys proved. For private keys the code copies the key onto itself with memcpy, undefined by the letter of C (violated); proved where such a memcpy changes nothing."
  },
  {
   "property": "C80",
   "status": "proved",
   "theorems": [
    "C80_base58",
    "C80_base58_check",
    "C80_keys",
    "C80_extended_keys",
    "C80_addresses"
   ],
   "note": ""
  },
  {
   "property": "C81",
   "status": "partial",
   "theorems": [
    "C81_served",
    "C81_to_base58_exact",
    "C81_from_base58_exact",
    "C81_violated_refused",
    "C81_violated_address"
   ],
   "note": "Violated: DECLARE_BUFFER does not check malloc. Proved: the exact sizes from which memory is requested, undefined behaviour when it is refused, unchanged results when it is served."
  },
  {
   "property": "C82",
   "status": "partial",
   "theorems": [
    "C82_lengths_do_not_wrap",
    "C82_base58_lengths_iff_partial",
    "C82_base58_lengths_64",
    "C82_violated_32bit"
   ],
   "note": "Proved for hex, Base64, Base32, Bech32. Violated for Base58 on 32-bit machines; exact condition proved."
  },
  {
   "property": "C83",
   "status": "proved",
   "theorems": [
    "C83_digest_over_message",
    "C83_hmac_over_inputs",
    "C83_bip32_hash_over_inputs"
   ],
   "note": "Proved for all overlaps."
  },
  {
   "property": "C84",
   "status": "partial",
   "theorems": [
    "C84_conversions_in_place",
    "C84_base58_roundtrip_in_place",
    "C84_secret_keys_in_place",
    "C84_address_in_place_partial",
    "C84_violated_address_in_place"
   ],
   "note": "Proved for all conversions but address decoding, where it is violated; the cases in which it holds are proved."
  },
  {
   "property": "C85",
   "status": "partial",
   "theorems": [
    "C85_sha256_iff_partial",
    "C85_sha512_iff_partial",
    "C85_sha1_iff_partial",
    "C85_ripemd160_iff_partial",
    "C85_hmac_sha256_iff_partial",
    "C85_hmac_sha512_iff_partial",
    "C85_hash256_iff_partial",
    "C85_hash160_iff_partial",
    "C85_hash256_d64_iff_partial",
    "C85_bip32_hash_iff_partial",
    "C85_unaligned_machine",
    "C85_aligned_places",
    "C85_violated_unaligned_output",
    "C85_violated_to_base58_check_partial",
    "C85_violated_from_base58_check_partial"
   ],
   "note": "Violated on machines with alignment requirements; proved: the exact set of placements for which each hash function, HMAC, composition and Base58Check conversion is defined, and the digest there. Strict aliasing is not modelled."
  },
  {
   "property": "C86",
   "status": "partial",
   "theorems": [
    "C86_numerals",
    "C86_unix_open",
    "C86_unix_read",
    "C86_unix_same",
    "C86_windows_report_partial",
    "C86_violated_windows_unknown_error",
    "C86_violated_bcrypt_format",
    "C86_windows_same"
   ],
   "note": "Violated on Windows in two cases, both proved; Unix completely proved; writing to stderr is assumed to succeed."
  },
  {
   "property": "C87",
   "status": "proved",
   "theorems": [
    "C87_hex",
    "C87_base64",
    "C87_base64_urlsafe",
    "C87_base32",
    "C87_base32_raw",
    "C87_base58",
    "C87_base58check",
    "C87_bech32",
    "C87_varint",
    "C87_zigzag",
    "C87_key_der",
    "C87_pubkey",
    "C87_signature",
    "C87_extended",
    "C87_texts"
   ],
   "note": "Proved for every pair of values, across kinds and networks."
  },
  {
   "property": "C88",
   "status": "proved",
   "theorems": [
    "C88_to_hex",
    "C88_to_base64",
    "C88_to_base64_urlsafe",
    "C88_to_base32",
    "C88_to_base32_raw",
    "C88_from_hex",
    "C88_from_base64_urlsafe",
    "C88_from_base64"
   ],
   "note": "Proved for every pair of pieces; examples show that other places to cut do not work."
  },
  {
   "property": "C89",
   "status": "proved",
   "theorems": [
    "C89_watch_only",
    "C89_restore",
    "C89_payment"
   ],
   "note": "Proved for every key, path and pair of machines."
  },
  {
   "property": "C90",
   "status": "proved",
   "theorems": [
    "C90_four_errors",
    "C90_burst"
   ],
   "note": "Proved for every error pattern of up to four characters or within six consecutive ones. That such a text is not taken for a Base58 address is not claimed: the decoder tries Base58 first and only a 32-bit checksum stands in the way (C39, C42)."
  },
  {
   "property": "C91",
   "status": "partial",
   "theorems": [
    "C91_hex",
    "C91_base64_urlsafe_partial",
    "C91_base64_partial",
    "C91_base32_partial",
    "C91_violated_spare_bits",
    "C91_wif",
    "C91_xpub",
    "C91_xprv_partial",
    "C91_base58_address"
   ],
   "note": "Proved without exception for hex, WIF, extended public keys and Base58 addresses. Violated for Base64, URL-safe Base64, Base32 and extended private keys; for these the exact condition under which the text comes back is proved."
  },
  {
   "property": "C92",
   "status": "proved",
   "theorems": [
    "C92_hashes",
    "C92_hmac",
    "C92_hash256_d64",
    "C92_bip32_hash",
    "C92_exkey_init",
    "C92_key_derive",
    "C92_exkey_derive",
    "C92_exkey_code"
   ],
   "note": "Proved for every function named. Branches and array offsets only: no speculation, no timing of instructions; calls into libsecp256k1 are seen as calls."
  },
  {
   "property": "C93",
   "status": "partial",
   "theorems": [
    "C93_hex_partial",
    "C93_violated_hex",
    "C93_violated_base58",
    "C93_violated_wif",
    "C93_violated_exkey",
    "C93_violated_recover_hex",
    "C93_violated_recover_wif",
    "C93_violated_recover_exkey",
    "C93_base64_partial",
    "C93_base64_urlsafe_partial",
    "C93_base32_partial",
    "C93_violated_base64",
    "C93_violated_base64_urlsafe",
    "C93_violated_base32",
    "C93_violated_recover_base64",
    "C93_violated_recover_base64_urlsafe",
    "C93_violated_recover_base32"
   ],
   "note": "Violated: the whole secret follows from the offsets of the table look-ups, for hex, Base58, WIF and extended private keys. What holds: apart from the accesses to the table, hexadecimal output shows the length only."
  },
  {
   "property": "C94",
   "status": "proved",
   "theorems": [
    "C94_to_hex",
    "C94_to_base64",
    "C94_to_base32",
    "C94_to_base58",
    "C94_to_base58_check",
    "C94_bech32_encode",
    "C94_encode_varint",
    "C94_hashes",
    "C94_hmac",
    "C94_bitcoin_hashes",
    "C94_bip32_hash",
    "C94_hash256_d64",
    "C94_exkey_encode",
    "C94_key_to_string",
    "C94_exkey_to_string",
    "C94_key_encode",
    "C94_signature_encode"
   ],
   "note": "Proved for every writer named, as an equation with both cases. Base58 for at most 1,556,147,570 significant bytes (see C14), hashes below 2^61 bytes."
  },
  {
   "property": "C95",
   "status": "proved",
   "theorems": [
    "C95_from_hex",
    "C95_from_base64",
    "C95_from_base32",
    "C95_from_base58"
   ],
   "note": "Proved for every reader named, as an equation with both cases; Bech32 in C96_bech32_verdict."
  },
  {
   "property": "C96",
   "status": "proved",
   "theorems": [
    "C96_bech32_bad_character",
    "C96_bech32_bad_shape",
    "C96_bech32_verdict"
   ],
   "note": "Proved. The header says that too little room for the human-readable part is answered with 0; the code answers -3 (0 would be taken for a text without data)."
  },
  {
   "property": "C97",
   "status": "partial",
   "theorems": [
    "C97_hex_base64",
    "C97_violated_base58",
    "C97_base58_partial",
    "C97_violated_base58_refused",
    "C97_violated_base58_unterminated",
    "C97_violated_base58check",
    "C97_base32_partial",
    "C97_violated_base32",
    "C97_violated_base32_unterminated",
    "C97_bech32_partial",
    "C97_violated_bech32",
    "C97_violated_bech32_unterminated"
   ],
   "note": "Violated by the code for Base32, base58 and Bech32; the exact behaviour on all memory is proved, and that the property holds where the text is followed by a NUL at once (or by blanks, or by text without '=' or '1'), and always for hex and Base64."
  },
  {
   "property": "C98",
   "status": "partial",
   "theorems": [
    "C98_base58_writers",
    "C98_base58_readers",
    "C98_announced_texts",
    "C98_violated_base58",
    "C98_violated_base58check",
    "C98_violated_keys",
    "C98_bech32",
    "C98_violated_bech32",
    "C98_witness_v0",
    "C98_witness_unknown",
    "C98_keys",
    "C98_extended_keys",
    "C98_context",
    "C98_invalid_keys",
    "C98_violated_sign",
    "C98_violated_hardened",
    "C98_sizes"
   ],
   "note": "That the builds agree wherever no assertion fails is proved for all functions; where one fails the exact behaviour of the release build is proved, and there it is wrong for base58 with a wrong announced length, Bech32 values above 31, signing with an invalid key and hardened children of public keys."
  },
  {
   "property": "C99",
   "status": "partial",
   "theorems": [
    "C99_last_characters_partial",
    "C99_violated_inserted",
    "C99_violated_removed",
    "C99_address_partial",
    "C99_version_0",
    "C99_violated_address"
   ],
   "note": "Which single insertions and deletions among the last six characters go unnoticed is characterised exactly: q's before a final p. There the claim fails of the code (as of Bech32 itself) for witness versions 1 to 16; for version 0 it holds."
  },
  {
   "property": "C100",
   "status": "partial",
   "theorems": [
    "C100_c_locale",
    "C100_base58_exact",
    "C100_base58_same",
    "C100_base58_accepted",
    "C100_violated_blank",
    "C100_bech32_partial",
    "C100_violated_turkish",
    "C100_address",
    "C100_address_accepted"
   ],
   "note": "Accepted texts have the same value in every lawful locale (proved exactly for base58 and its users and for addresses); two dependences on the locale are real and proved: extra spaces around base58 texts, and upper-case I in Bech32 prefixes in Turkish locales."
  },
  {
   "property": "C101",
   "status": "partial",
   "theorems": [
    "C101_base64_partial",
    "C101_base64_urlsafe_partial",
    "C101_base32_partial",
    "C101_violated_base64",
    "C101_violated_base64_urlsafe",
    "C101_violated_base32",
    "C101_violated_recover_base64",
    "C101_violated_recover_base64_urlsafe",
    "C101_violated_recover_base32",
    "C101_hex_partial",
    "C101_violated_hex",
    "C101_violated_recover_hex",
    "C101_violated_base58",
    "C101_violated_recover_base58",
    "C101_violated_wif",
    "C101_violated_recover_wif",
    "C101_violated_exkey",
    "C101_violated_recover_exkey"
   ],
   "note": "Proved as a violation: the secret is a function of what is observed while its text is read. What holds for hexadecimal apart from the look-ups: C101_hex_partial."
  },
  {
   "property": "C102",
   "status": "proved",
   "theorems": [
    "C102_hashes",
    "C102_hmac",
    "C102_hash256_d64",
    "C102_bip32_hash",
    "C102_exkey_init",
    "C102_hex",
    "C102_to_base58",
    "C102_to_base58_least",
    "C102_from_base58",
    "C102_from_base58_least",
    "C102_key_to_string",
    "C102_exkey_to_string",
    "C102_key_from_string",
    "C102_exkey_from_string",
    "C102_base64",
    "C102_base64_urlsafe",
    "C102_to_base32",
    "C102_from_base32",
    "C102_varint",
    "C102_zigzag",
    "C102_bech32_decode",
    "C102_bech32_encode",
    "C102_to_address_base58",
    "C102_to_address_witness",
    "C102_address_decode"
   ],
   "note": "Upper bounds for all inputs, and for base58 lower bounds of the same order."
  },
  {
   "property": "C103",
   "status": "partial",
   "theorems": [
    "C103_length_monotone",
    "C103_violated_two_zeros",
    "C103_never_int64_min",
    "C103_zigzag_unique_partial"
   ],
   "note": "Monotonicity proved; uniqueness violated, with the exact set of exceptions."
  },
  {
   "property": "C104",
   "status": "proved",
   "theorems": [
    "C104_blocks_on_one_object",
    "C104_output_in_between_differs",
    "C104_merkle_root"
   ],
   "note": "Proved for all admissible positions; an example shows the condition is needed."
  },
  {
   "property": "C105",
   "status": "proved",
   "theorems": [
    "C105_decode_onto_text",
    "C105_encode_over_values",
    "C105_positions_matter"
   ],
   "note": "Proved for the stated positions; a theorem shows that other positions fail."
  },
  {
   "property": "C106",
   "status": "partial",
   "theorems": [
    "C106_key_decode_separate_partial",
    "C106_violated_key_decode_over_encoding",
    "C106_signature_decode_separate_partial",
    "C106_violated_signature_decode_over_encoding",
    "C106_key_encode_positions",
    "C106_key_encode_partial",
    "C106_violated_key_encode_header",
    "C106_key_decode_positions",
    "C106_signature_decode_positions",
    "C106_key_decode_own_encoding"
   ],
   "note": "Violated by the code where the result covers the first byte of the encoding or its header (decoders), where it begins among the key's bytes, and where the key overlaps the header or the place of the key in the encoding (encoder). The exact behaviour of all three functions is proved for every position and every content; where the property holds is proved too."
  },
  {
   "property": "C107",
   "status": "partial",
   "theorems": [
    "C107_calls",
    "C107_one_call",
    "C107_losses",
    "C107_violated_hole",
    "C107_threads",
    "C107_violated_mixed"
   ],
   "note": "Proved for buffers of at most 406 bytes; for longer ones violated by the code (pieces can be mixed with those of another thread, a lost piece leaves a hole), with the exact pieces proved for every buffer and every stream."
  },
  {
   "property": "C108",
   "status": "partial",
   "theorems": [
    "C108_bech32_decode",
    "C108_bech32_spare",
    "C108_violated_short_data",
    "C108_address_decode",
    "C108_address_leaves",
    "C108_address_accepted"
   ],
   "note": "Proved for every accepted text and every text with five characters after the last '1' or five spare bytes; violated by an exactly described set of refused texts."
  },
  {
   "property": "C109",
   "status": "partial",
   "theorems": [
    "C109_from_hex",
    "C109_from_base32",
    "C109_bech32_decode",
    "C109_address_partial",
    "C109_upper_address_partial"
   ],
   "note": "Proved for hex, Base32, Bech32; for addresses proved up to a Base58Check collision that is excluded for upper-case texts of all but three lengths."
  },
  {
   "property": "C110",
   "status": "partial",
   "theorems": [
    "C110_base58_encoders",
    "C110_pubkey_own_text",
    "C110_script_own_text",
    "C110_script_roundtrip_partial",
    "C110_violated_script_as_pubkey",
    "C110_base58_address_sound",
    "C110_witness_own_text",
    "C110_violated_long_hrp",
    "C110_exkey_to_string",
    "C110_exkey_from_string_spec_partial",
    "C110_exkey_own_text",
    "C110_exkey_from_string_sound",
    "C110_violated_exkey_overrun",
    "C110_expubkey_from_string_spec_partial",
    "C110_expubkey_own_text",
    "C110_expubkey_from_string_sound",
    "C110_violated_expubkey_overrun",
    "C110_exkey_roundtrip_partial",
    "C110_violated_exkey_no_prefix",
    "C110_key_to_string",
    "C110_key_string_max_length",
    "C110_key_from_string_spec_partial",
    "C110_key_own_text",
    "C110_key_roundtrip_partial",
    "C110_violated_key_overrun",
    "C110_violated_no_prefix",
    "C110_key_from_string_sound",
    "C110_witness_address_sound",
    "C110_violated_no_witness_address",
    "C110_witness_v0_encoders",
    "C110_witness_unknown_encoder"
   ],
   "note": "Exact results for every prefix size; round trips proved for prefixes of 1 to 3 (secret keys) and 1 to 4 bytes (extended keys), for prefixes of addresses neither of which starts with the other, and for human-readable parts of at most 16 visible characters without capitals; the other cases are refuted."
  },
  {
   "property": "C111",
   "status": "partial",
   "theorems": [
    "C111_few_messages",
    "C111_few_keys",
    "C111_few_forms",
    "C111_forms_exact",
    "C111_violated_residue",
    "C111_messages_exact",
    "C111_violated_second_message",
    "C111_keys_exact",
    "C111_violated_second_key"
   ],
   "note": "Uniqueness is refuted (three ways); proved instead: at most two (four for r < p - n) hashes modulo n, keys and second halves, and exactly which in the usual case."
  },
  {
   "property": "C112",
   "status": "partial",
   "theorems": [
    "C112_violated_ancestor",
    "C112_violated_parent"
   ],
   "note": "Refuted for children that are not hardened, at any depth. Nothing is claimed about hardened children (a conjecture about HMAC-SHA512)."
  },
  {
   "property": "C113",
   "status": "partial",
   "theorems": [
    "C113_hash256",
    "C113_hash160",
    "C113_hmac_sha256",
    "C113_hmac_sha512",
    "C113_bip32_hash",
    "C113_merkle_partial",
    "C113_merkle_same_height_partial",
    "C113_merkle_distinct_partial",
    "C113_violated_merkle_height",
    "C113_violated_merkle_length",
    "C113_violated_hmac_zeros",
    "C113_violated_hmac_digest"
   ],
   "note": "Proved up to collisions at named inputs; refuted for HMAC keys (trailing zeros; long key and its digest) and for Merkle lists of different lengths."
  },
  {
   "property": "C114",
   "status": "partial",
   "theorems": [
    "C114_violated_same_first_half",
    "C114_nonces_partial",
    "C114_violated_repeat"
   ],
   "note": "That r never repeats cannot be proved of a deterministic function of 512 bits; proved: a repeat is an opposite number, another attempt, or a named collision of SHA-256, and a repeat (from anywhere) gives the key away."
  },
  {
   "property": "C115",
   "status": "partial",
   "theorems": [
    "C115_violated_sha256",
    "C115_violated_sha512",
    "C115_violated_sha1",
    "C115_violated_ripemd160"
   ],
   "note": "Violated as such (length extension, as published for all four functions): proved how the digest of the longer text is computed."
  },
  {
   "property": "C116",
   "status": "partial",
   "theorems": [
    "C116_hex",
    "C116_base58_partial",
    "C116_base58check_partial",
    "C116_varint_partial",
    "C116_violated_base58",
    "C116_violated_varint",
    "C116_violated_base64",
    "C116_violated_base64_urlsafe",
    "C116_violated_base32",
    "C116_violated_bech32"
   ],
   "note": "Proved for hexadecimal, and for Base58, Base58Check and varints of equal lengths; violated by the others, for all data that begin so."
  },
  {
   "property": "C117",
   "status": "partial",
   "theorems": [
    "C117_keyid_partial",
    "C117_address_partial",
    "C117_violated_keyid",
    "C117_violated_fingerprint"
   ],
   "note": "Proved up to collisions that the two public keys show; without that exception violated, by counting."
  },
  {
   "property": "C118",
   "status": "partial",
   "theorems": [
    "C118_same_key",
    "C118_siblings_partial",
    "C118_same_pubkey",
    "C118_public_siblings_partial",
    "C118_parent"
   ],
   "note": "The equality of keys is characterised exactly; that it does not happen is proved up to collisions of SHA-512 that the two derivations show."
  }
 ]
}