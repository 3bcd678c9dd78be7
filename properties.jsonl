{"id": "C01", "title": "Hex round trip", "statement": "For every byte buffer and either case flag, fingera_to_hex writes exactly 2*buf_size characters (fingera_to_hex_length) and fingera_from_hex applied to those characters returns buf_size and reproduces the buffer; decoding is insensitive to letter case.", "quantifier": "all byte buffers of any length, both values of upper", "why_tests_cant": "Buffer contents and lengths are unbounded; the 256-byte exhaustive test fixes one length.", "anchors": ["src/hex.c:fingera_to_hex", "src/hex.c:fingera_from_hex", "include/fingera_libc/hex.h:fingera_to_hex_length"]}
{"id": "C02", "title": "Hex decoding of arbitrary input", "statement": "fingera_from_hex on any string decodes exactly the longest prefix of character pairs that are all hexadecimal digits, ignores a trailing odd character, returns the number of bytes written, never reads outside str_len and never writes more than str_len/2 (<= fingera_from_hex_length) bytes.", "quantifier": "all strings, all lengths, all output buffers of the documented size", "why_tests_cant": "Invalid inputs are infinitely many; position and combination of the first bad character cannot be enumerated.", "anchors": ["src/hex.c:fingera_from_hex", "include/fingera_libc/hex.h:fingera_from_hex_length"]}
{"id": "C03", "title": "Hex dump output and cache bound", "statement": "fingera_hex_dump prints exactly the hex digits of the buffer with one blank before every 4th byte, a second before every 8th, a third before every 16th and a newline before every 32nd, followed by one final newline, for every buffer size, and never overruns its fixed 1024-byte cache.", "quantifier": "all byte buffers of any length, both case flags", "why_tests_cant": "The cache overflow depends on how group separators interleave with flushes for arbitrarily long inputs.", "anchors": ["src/hex.c:fingera_hex_dump"]}
{"id": "C04", "title": "Base64 encoding is RFC 4648", "statement": "fingera_to_base64 produces the RFC 4648 section 4 encoding (6-bit regrouping of the bit stream, zero fill, '=' padding to a multiple of 4) and writes exactly fingera_to_base64_length bytes.", "quantifier": "all byte buffers of any length", "why_tests_cant": "Only 256 particular buffers are tested; bit placement bugs can be data dependent.", "anchors": ["src/base64.c:_fingera_to_base64", "include/fingera_libc/base64.h:fingera_to_base64_length"]}
{"id": "C05", "title": "URL-safe Base64 encoding is RFC 4648 section 5 without padding", "statement": "fingera_to_base64_urlsafe produces the URL-safe alphabet encoding without padding and writes exactly fingera_to_base64_urlsafe_length bytes, so the output never contains '+', '/' or '='.", "quantifier": "all byte buffers of any length", "why_tests_cant": "Same as C04.", "anchors": ["src/base64.c:_fingera_to_base64", "include/fingera_libc/base64.h:fingera_to_base64_urlsafe_length"]}
{"id": "C06", "title": "Base64 round trips", "statement": "Decoding the output of either encoder with the matching decoder returns the original length and bytes, and the decode length functions predict that length.", "quantifier": "all byte buffers of any length, both variants", "why_tests_cant": "Unbounded data.", "anchors": ["src/base64.c:_fingera_from_base64", "src/base64.c:fingera_from_base64", "src/base64.c:fingera_from_base64_urlsafe"]}
{"id": "C07", "title": "Base64 decoding of arbitrary input is memory safe and bounded", "statement": "For any input bytes the two decoders read only inside str_len, write no more than the value of fingera_from_base64(_urlsafe)_length, and leave the rest of the output buffer unchanged.", "quantifier": "all strings (valid or not), all lengths", "why_tests_cant": "Malformed inputs are unbounded; an overrun shows only for particular length/content combinations.", "anchors": ["src/base64.c:_fingera_from_base64", "include/fingera_libc/base64.h:fingera_from_base64_length"]}
{"id": "C08", "title": "Base64 decoder acceptance", "statement": "The value returned by the decoder equals the documented decoded length exactly when every character that is looked at belongs to the alphabet; on a bad character everything before the 4-character group that contains it is still decoded. (As the code stands, '=' anywhere in a standard string counts as the digit 0, and a lone trailing character is ignored.)", "quantifier": "all strings", "why_tests_cant": "Requires reasoning over every position of every bad character.", "anchors": ["src/base64.c:_fingera_from_base64", "src/base64.c:BASE64_STANDARD_DECODE"]}
{"id": "C09", "title": "Base32 encoding is RFC 4648", "statement": "fingera_to_base32 produces the lower-case RFC 4648 base32 encoding with '=' padding and writes exactly fingera_to_base32_length bytes; fingera_to_base32_raw produces the unpadded 5-bit groups themselves and returns how many it wrote.", "quantifier": "all byte buffers of any length", "why_tests_cant": "Unbounded data; only eight literals are tested.", "anchors": ["src/base32.c:_fingera_to_base32", "include/fingera_libc/base32.h:fingera_to_base32_length"]}
{"id": "C10", "title": "Base32 round trip", "statement": "Decoding the (NUL-terminated) output of fingera_to_base32 returns the original bytes and length, and fingera_from_base32_length predicts it; upper-case letters decode like lower-case ones.", "quantifier": "all byte buffers of any length", "why_tests_cant": "Unbounded data.", "anchors": ["src/base32.c:_fingera_from_base32", "src/base32.c:fingera_from_base32_length"]}
{"id": "C11", "title": "Raw base32 round trip", "statement": "fingera_from_base32_raw applied to a buffer produced by fingera_to_base32_raw returns the original bytes, reading only that buffer and independently of the memory that follows it.", "quantifier": "all byte buffers and all contents of adjacent memory", "why_tests_cant": "The failure depends on bytes outside the buffer, which a test does not control. (The unchanged code violates it: it runs strchr over the raw buffer.)", "anchors": ["src/base32.c:base32_strlen", "src/base32.c:fingera_from_base32_raw"]}
{"id": "C12", "title": "Base32 decoding of arbitrary strings", "statement": "For every NUL-terminated string fingera_from_base32 stays inside the string, writes at most fingera_from_base32_length bytes, and returns that length only if every character was a legal base32 character (header comment 2).", "quantifier": "all NUL-terminated strings", "why_tests_cant": "Infinitely many malformed strings. (The unchanged code violates it: bytes >= 0x80 index the table negatively where char is signed, and the final partial group is not validated.)", "anchors": ["src/base32.c:_fingera_from_base32", "include/fingera_libc/base32.h"]}
{"id": "C13", "title": "Base58 encoding is the canonical big-endian conversion", "statement": "fingera_to_base58 outputs one '1' per leading zero byte followed by the base-58 digits, most significant first and without leading zero digit, of the remaining bytes read as a big-endian number.", "quantifier": "all byte buffers (up to 1,556,147,570 bytes behind the leading zeros; beyond that the conversion is undefined, which is proved as well)", "why_tests_cant": "Arbitrary-precision conversion; carries ripple through unboundedly many digits.", "anchors": ["src/base58.c:fingera_to_base58"]}
{"id": "C14", "title": "Base58 encoding never overflows its buffers", "statement": "The working buffer of size n*138/100+1 always suffices (the 'base58 overflow' assertion never fires) and the number of characters written never exceeds fingera_to_base58_length(buf_size).", "quantifier": "all byte buffers", "why_tests_cant": "Needs the inequality 256^n <= 58^(138n/100+1) for every n.", "anchors": ["src/base58.c:fingera_to_base58", "include/fingera_libc/base58.h:fingera_to_base58_length"]}
{"id": "C15", "title": "Base58 round trip", "statement": "For every byte buffer, fingera_from_base58 on the NUL-terminated result of fingera_to_base58 returns the original length and bytes.", "quantifier": "all byte buffers", "why_tests_cant": "Unbounded data.", "anchors": ["src/base58.c:fingera_to_base58", "src/base58.c:fingera_from_base58"]}
{"id": "C16", "title": "Base58 decoding accepts exactly well-formed strings and is injective", "statement": "fingera_from_base58 on a NUL-terminated string yields a non-zero length only if the string is blanks, base58 digits, blanks; the bytes are the big-endian value of the digits preceded by one zero byte per leading '1'; re-encoding the bytes gives back the string without surrounding blanks.", "quantifier": "all NUL-terminated strings, buffers and both signednesses of char", "why_tests_cant": "All possible strings, including whitespace placement.", "anchors": ["src/base58.c:fingera_from_base58"]}
{"id": "C17", "title": "Base58 decoding fits the documented output buffer", "statement": "The number of bytes fingera_from_base58 writes never exceeds fingera_from_base58_length(str_len), so a caller who sizes the buffer with it is safe.", "quantifier": "all strings", "why_tests_cant": "A tester would have to think of strings dominated by '1'. (The unchanged code violates it.)", "anchors": ["src/base58.c:fingera_from_base58", "include/fingera_libc/base58.h:fingera_from_base58_length"]}
{"id": "C18", "title": "Base58Check round trip", "statement": "fingera_from_base58_check on the result of fingera_to_base58_check(buf, prefix) returns prefix||buf and its length, for every non-empty prefix||buf.", "quantifier": "all payloads and prefixes", "why_tests_cant": "Unbounded data.", "anchors": ["src/btc/base58_check.c:fingera_to_base58_check", "src/btc/base58_check.c:fingera_from_base58_check"]}
{"id": "C19", "title": "Base58Check accepts only correct checksums", "statement": "fingera_from_base58_check returns a non-zero length only if the string is well-formed base58 whose last four decoded bytes are the first four of double-SHA-256 of the rest; the string is then (up to surrounding blanks) exactly what fingera_to_base58_check produces for the returned payload.", "quantifier": "all NUL-terminated strings, buffers and both signednesses of char", "why_tests_cant": "All possible corrupt strings.", "anchors": ["src/btc/base58_check.c:fingera_from_base58_check"]}
{"id": "C20", "title": "Varint round trip and self-delimitation", "statement": "fingera_decode_varint applied to the output of fingera_encode_varint(v) followed by arbitrary further bytes returns the encoded length and v; hence concatenated encodings decode back one by one.", "quantifier": "all 64-bit values, all trailing bytes", "why_tests_cant": "2^64 values and arbitrary suffixes.", "anchors": ["src/compress_integer.c:fingera_encode_varint", "src/compress_integer.c:fingera_decode_varint"]}
{"id": "C21", "title": "Varint length", "statement": "fingera_encode_varint writes between 1 and 10 bytes (never overrunning its 10-byte temporary), the length is monotone in the value, and it is the least length whose bijective base-128 range contains the value.", "quantifier": "all 64-bit values", "why_tests_cant": "2^64 values.", "anchors": ["src/compress_integer.c:fingera_encode_varint"]}
{"id": "C22", "title": "Varint decoding of arbitrary input", "statement": "fingera_decode_varint reads no more than min(size,10) bytes, returns 0 exactly when none of those bytes has its top bit clear, and otherwise returns the index of the first such byte plus one.", "quantifier": "all buffers and sizes", "why_tests_cant": "Unbounded inputs.", "anchors": ["src/compress_integer.c:fingera_decode_varint"]}
{"id": "C23", "title": "Varint encodings are unique", "statement": "If fingera_decode_varint accepts a byte string then re-encoding the value gives the same bytes. (False for overflowing 10-byte inputs, true for all encodings of at most 9 bytes and for 10-byte ones whose value fits 64 bits.)", "quantifier": "all byte strings of 1 to 10 bytes", "why_tests_cant": "2^70 encodings.", "anchors": ["src/compress_integer.c:fingera_decode_varint", "src/compress_integer.c:fingera_encode_varint"]}
{"id": "C24", "title": "Zigzag round trip", "statement": "fingera_decode_zigzag(fingera_encode_zigzag(v)) = v with the same length for every int64_t v. (The unchanged code violates it for INT64_MIN, where llabs overflows.)", "quantifier": "all 64-bit signed values", "why_tests_cant": "2^64 values; the only failing one is a single point.", "anchors": ["src/compress_integer.c:fingera_encode_zigzag", "src/compress_integer.c:fingera_decode_zigzag"]}
{"id": "C25", "title": "SHA-256 is FIPS 180-4", "statement": "fingera_sha2_256 computes the FIPS 180-4 SHA-256 digest of every message shorter than 2^61 bytes.", "quantifier": "all messages shorter than 2^61 bytes", "why_tests_cant": "Unbounded messages; block boundary and padding cases; unrolled 64-round code.", "anchors": ["src/hash/sha2.c:sha256_transform", "src/hash/sha2.c:sha256_final", "src/hash/sha2.c:fingera_sha2_256"]}
{"id": "C26", "title": "SHA-512 is FIPS 180-4", "statement": "fingera_sha2_512 computes the FIPS 180-4 SHA-512 digest of every message shorter than 2^61 bytes.", "quantifier": "all messages shorter than 2^61 bytes", "why_tests_cant": "As C25.", "anchors": ["src/hash/sha2.c:sha512_transform", "src/hash/sha2.c:sha512_final", "src/hash/sha2.c:fingera_sha2_512"]}
{"id": "C27", "title": "SHA-1 is FIPS 180-4", "statement": "fingera_sha1 computes the FIPS 180-4 SHA-1 digest of every message shorter than 2^61 bytes.", "quantifier": "all messages shorter than 2^61 bytes", "why_tests_cant": "As C25.", "anchors": ["src/hash/sha1.c:sha1_transform", "src/hash/sha1.c:fingera_sha1"]}
{"id": "C28", "title": "RIPEMD-160 is the published function", "statement": "fingera_ripemd160 computes RIPEMD-160 (Dobbertin, Bosselaers, Preneel) of every message shorter than 2^61 bytes.", "quantifier": "all messages shorter than 2^61 bytes", "why_tests_cant": "As C25.", "anchors": ["src/hash/ripemd160.c:ripemd160_transform", "src/hash/ripemd160.c:fingera_ripemd160"]}
{"id": "C29", "title": "HMAC-SHA256 is RFC 2104", "statement": "fingera_hmac_sha256(key,msg) = SHA256((K^opad) || SHA256((K^ipad) || msg)) for every key (shorter or longer than the block) and message.", "quantifier": "all keys and messages with lengths below 2^61-64", "why_tests_cant": "Unbounded data; key length boundary.", "anchors": ["src/hash/sha2.c:fingera_hmac_sha256"]}
{"id": "C30", "title": "HMAC-SHA512 is RFC 2104", "statement": "fingera_hmac_sha512(key,msg) = SHA512((K^opad) || SHA512((K^ipad) || msg)) for every key and message.", "quantifier": "all keys and messages with lengths below 2^61-128", "why_tests_cant": "Unbounded data.", "anchors": ["src/hash/sha2.c:fingera_hmac_sha512"]}
{"id": "C31", "title": "Specialised double SHA-256 of 64-byte blocks", "statement": "fingera_btc_hash256_d64(out,in,blocks) writes for each i<blocks exactly fingera_btc_hash256 of the i-th 64-byte input block.", "quantifier": "all inputs and all block counts", "why_tests_cant": "2^512 inputs per block; the code has 128 hand-folded constants.", "anchors": ["src/hash/sha2.c:_hash256_d64_transform", "src/btc/hash.c:fingera_btc_hash256_d64"]}
{"id": "C32", "title": "Bitcoin hash compositions", "statement": "fingera_btc_hash160 = RIPEMD160 o SHA256, fingera_btc_hash256 = SHA256 o SHA256, and fingera_btc_bip32_hash = HMAC-SHA512 keyed with the chain code of header || data32 || big-endian child, for all inputs.", "quantifier": "all messages", "why_tests_cant": "Unbounded data.", "anchors": ["src/btc/hash.c"]}
{"id": "C33", "title": "Byte-order independence", "statement": "The fixed-width read/write helpers, hence all hashes and serialisations built on them, give the same byte-level result on little- and big-endian hosts, and read_X inverts write_X.", "quantifier": "all 32/64-bit values and both host byte orders", "why_tests_cant": "CI runs on one byte order only.", "anchors": ["include/fingera_libc/endian.h"]}
{"id": "C34", "title": "Bech32 round trip", "statement": "For every legal lower-case human-readable part and 5-bit data whose encoding is at most 90 characters, fingera_bech32_decode on the NUL-terminated output of fingera_bech32_encode returns the data length, the data and the HRP.", "quantifier": "all HRPs and data meeting the BIP 173 length limit", "why_tests_cant": "Astronomically many strings.", "anchors": ["src/btc/bech32.c:fingera_bech32_encode", "src/btc/bech32.c:fingera_bech32_decode"]}
{"id": "C35", "title": "Bech32 decoder soundness", "statement": "fingera_bech32_decode returns a non-negative value only for strings that satisfy BIP 173: 8..90 characters in 33..126, not mixed case, separator = last '1' with at least one character before and six after, data characters in the charset, valid checksum; the string is then, up to case, what fingera_bech32_encode yields for the returned parts.", "quantifier": "all NUL-terminated strings", "why_tests_cant": "All malformed strings.", "anchors": ["src/btc/bech32.c:fingera_bech32_decode", "src/btc/bech32.c:is_illegal"]}
{"id": "C36", "title": "Bech32 checksum error detection", "statement": "Two strings of equal length that share the HRP and differ (other than in letter case) only in at most 6 consecutive data/checksum characters (in particular in a single one) are never both accepted.", "quantifier": "all HRPs, all data, all error positions and values, any length", "why_tests_cant": "Error patterns times data is astronomically large.", "anchors": ["src/btc/bech32.c:poly_mod", "src/btc/bech32.c:verify_checksum"]}
{"id": "C37", "title": "Bech32 decoder memory safety", "statement": "fingera_bech32_decode reads only inside the NUL-terminated string and writes at most *hrp_size bytes to hrp and str_len-8 bytes to b32, whatever the input.", "quantifier": "all NUL-terminated strings and hrp capacities", "why_tests_cant": "Malformed inputs unbounded.", "anchors": ["src/btc/bech32.c:fingera_bech32_decode"]}
{"id": "C38", "title": "Base58 address round trip", "statement": "fingera_btc_address_decode of a pubkey/script address made by the encoders returns the right address type and the original hash, on every network.", "quantifier": "all hashes, all three networks", "why_tests_cant": "2^160 hashes.", "anchors": ["src/btc/address.c:fingera_to_address_pubkey", "src/btc/address.c:fingera_to_address_script", "src/btc/address.c:fingera_btc_address_decode"]}
{"id": "C39", "title": "Witness v0 address round trip", "statement": "Decoding a witness v0 key-hash (20 byte) or script-hash (32 byte) address made by the encoders returns the right type and the original program on every network; it is never mistaken for a base58 address.", "quantifier": "all 20/32-byte programs, all three networks", "why_tests_cant": "2^160 / 2^256 programs.", "anchors": ["src/btc/address.c:fingera_to_address_witnessv0_keyhash", "src/btc/address.c:fingera_to_address_witnessv0_scripthash", "src/btc/address.c:decode_bech32"]}
{"id": "C40", "title": "Witness v1..v16 address round trip", "statement": "Decoding a witness address of version 1..16 with a 2..40 byte program made by the encoder returns BTC_WITNESS_UNKNOWN_ADDRESS and version||program.", "quantifier": "all versions 1..16 and programs of 2..40 bytes, all networks", "why_tests_cant": "Unbounded data.", "anchors": ["src/btc/address.c:fingera_to_address_witness_unknown", "src/btc/address.c:decode_bech32"]}
{"id": "C41", "title": "Address encoders validate their arguments", "statement": "Each encoder returns 0 and writes nothing exactly when the output buffer is smaller than required or the program/version is out of range, and otherwise returns the number of characters written, which is at most out_size.", "quantifier": "all arguments", "why_tests_cant": "All sizes.", "anchors": ["src/btc/address.c"]}
{"id": "C42", "title": "Networks do not mix", "statement": "An address encoded for mainnet is rejected by the testnet and regtest decoders and vice versa, and a WIF/extended key string of one network is rejected for the other.", "quantifier": "all payloads", "why_tests_cant": "All payloads.", "anchors": ["src/btc/address.c:fingera_btc_address_decode", "src/btc/chain_parameters.c"]}
{"id": "C43", "title": "Address decoder respects the output buffer", "statement": "fingera_btc_address_decode never writes beyond the *out_size bytes the caller announced.", "quantifier": "all strings and capacities", "why_tests_cant": "Adversarial strings. (The unchanged code violates it for strings with many leading '1'.)", "anchors": ["src/btc/address.c:fingera_btc_address_decode"]}
{"id": "C44", "title": "Witness addresses are not malleable", "statement": "Two different lower-case witness address strings never decode to the same type and program (BIP 173 padding rules).", "quantifier": "all strings", "why_tests_cant": "All strings. (The unchanged code violates it: non-zero padding bits and surplus groups are accepted.)", "anchors": ["src/btc/address.c:decode_bech32", "src/base32.c:TAIL_TO_BYTES"]}
{"id": "C45", "title": "WIF round trip", "statement": "fingera_btc_key_from_string inverts fingera_btc_key_to_string for every 32-byte key, both compression flags and every network.", "quantifier": "all keys, flags, networks", "why_tests_cant": "2^256 keys.", "anchors": ["src/btc/key.c:fingera_btc_key_to_string", "src/btc/key.c:fingera_btc_key_from_string"]}
{"id": "C46", "title": "WIF decoder soundness and safety", "statement": "fingera_btc_key_from_string accepts only strings that are the Base58Check encoding of prefix||key or prefix||key||01, and never overruns its internal 40-byte buffer whatever the string.", "quantifier": "all strings", "why_tests_cant": "Adversarial strings. (The unchanged code violates the safety half.)", "anchors": ["src/btc/key.c:fingera_btc_key_from_string"]}
{"id": "C47", "title": "Private key DER round trip", "statement": "fingera_btc_key_decode inverts fingera_btc_key_encode for every valid key in both the 279-byte and 214-byte formats.", "quantifier": "all valid keys, both formats", "why_tests_cant": "2^256 keys.", "anchors": ["src/btc/key.c:ec_privkey_export_der", "src/btc/key.c:ec_privkey_import_der"]}
{"id": "C48", "title": "Private key DER import safety", "statement": "fingera_btc_key_decode never reads outside the input, and returns non-zero only with a valid 32-byte scalar in key32; on failure key32 is all zero.", "quantifier": "all byte strings", "why_tests_cant": "Malformed DER unbounded.", "anchors": ["src/btc/key.c:ec_privkey_import_der"]}
{"id": "C49", "title": "Signature DER parsing of strict encodings", "statement": "fingera_btc_signature_decode applied to the strict DER encoding of (r,s), even followed by garbage, yields exactly the signature (r,s); values that overflow yield the all-zero signature.", "quantifier": "all r,s < 2^256 and trailing garbage", "why_tests_cant": "2^512 signatures.", "anchors": ["src/btc/key.c:ecdsa_signature_parse_der_lax"]}
{"id": "C50", "title": "Signature DER parsing is memory safe", "statement": "fingera_btc_signature_decode never reads outside the input buffer and never writes outside its 64-byte scratch area, for any input.", "quantifier": "all byte strings", "why_tests_cant": "Malformed DER unbounded.", "anchors": ["src/btc/key.c:ecdsa_signature_parse_der_lax"]}
{"id": "C51", "title": "BIP32 public/private derivation commute", "statement": "For every extended private key and non-hardened index, deriving privately and then taking the public key gives the same extended public key as deriving from the public key, and one succeeds iff the other does.", "quantifier": "all keys, chain codes, indices < 2^31", "why_tests_cant": "2^512 keys times 2^31 indices.", "anchors": ["src/btc/exkey.c:fingera_exkey_derive", "src/btc/exkey.c:fingera_expubkey_derive", "src/btc/key.c:fingera_btc_key_derive", "src/btc/key.c:fingera_btc_pubkey_derive"]}
{"id": "C52", "title": "BIP32 derivation functions match BIP32", "statement": "fingera_btc_key_derive computes (parse256(I_L)+k mod n, I_R) with I = HMAC-SHA512(chain, 0x00||k||i) for hardened i and HMAC-SHA512(chain, serP(point(k))||i) otherwise, failing exactly when I_L>=n or the sum is 0; the derived extension carries depth+1, the index and the given fingerprint.", "quantifier": "all keys, chain codes and 32-bit indices", "why_tests_cant": "2^544 inputs.", "anchors": ["src/btc/key.c:fingera_btc_key_derive", "src/btc/exkey.c:fingera_exkey_derive"]}
{"id": "C53", "title": "Extended key serialisation round trip", "statement": "fingera_exkey_decode/fingera_expubkey_decode invert the corresponding encode functions for all field values; the layout is depth, fingerprint (little-endian), child (big-endian), chain code, key data.", "quantifier": "all extended keys", "why_tests_cant": "2^600 values.", "anchors": ["src/btc/exkey.c:fingera_exkey_encode", "src/btc/exkey.c:fingera_expubkey_encode"]}
{"id": "C54", "title": "Extended key strings round trip and soundness", "statement": "fingera_exkey_from_string/fingera_expubkey_from_string invert to_string on every network and accept only strings with the right prefix and payload size.", "quantifier": "all extended keys, networks, strings", "why_tests_cant": "Unbounded.", "anchors": ["src/btc/exkey.c:fingera_exkey_to_string", "src/btc/exkey.c:fingera_exkey_from_string", "src/btc/exkey.c:fingera_expubkey_from_string"]}
{"id": "C55", "title": "Signing yields low-R signatures", "statement": "If fingera_btc_key_sign returns, the signature was produced by the signer for the given key and hash, and its R value has a clear top bit, so its DER form never needs an R pad byte.", "quantifier": "all keys and hashes, any number of grinding attempts", "why_tests_cant": "Unbounded number of retries.", "anchors": ["src/btc/key.c:fingera_btc_key_sign", "src/btc/key.c:SigHasLowR"]}
{"id": "C56", "title": "Key generation yields valid keys", "statement": "When fingera_btc_key_new returns, the 32 bytes form a valid secret key, whatever the random source delivered.", "quantifier": "all random streams", "why_tests_cant": "All random streams.", "anchors": ["src/btc/key.c:fingera_btc_key_new"]}
{"id": "C57", "title": "Context lifecycle", "statement": "For every history of fingera_btc_key_init/uninit calls, no assertion fails exactly when calls alternate starting with init; both contexts are then live or both absent, never leaked or freed twice.", "quantifier": "all call histories", "why_tests_cant": "Unbounded histories.", "anchors": ["src/btc/key.c:fingera_btc_key_init", "src/btc/key.c:fingera_btc_key_uninit"]}
{"id": "C58", "title": "Random bytes fill the whole buffer", "statement": "When fingera_os_rand_bytes returns, every one of the buf_size bytes was delivered by the OS generator, however the reads are split; on any read error the process terminates.", "quantifier": "all sizes and all splittings of the stream into short reads", "why_tests_cant": "Short reads cannot be provoked by a test. (The unchanged code violates it: the pointer is not advanced.)", "anchors": ["src/random.c:fingera_os_rand_bytes"]}
{"id": "C59", "title": "Cleansing leaves no trace", "statement": "After fingera_cleanse(mem,size) every byte of the range has a fixed value independent of the previous content and bytes outside the range are untouched.", "quantifier": "all memories, ranges", "why_tests_cant": "All contents.", "anchors": ["src/cleanse.c:fingera_cleanse"]}
{"id": "C60", "title": "Fingerprints and key ids agree", "statement": "fingera_btc_key_fingerprint(k,compressed) equals fingera_btc_pubkey_fingerprint of the compressed public key of k, and both are the first four bytes of HASH160; key_keyid and pubkey_keyid agree.", "quantifier": "all valid keys", "why_tests_cant": "2^256 keys.", "anchors": ["src/btc/key.c:fingera_btc_key_keyid", "src/btc/key.c:fingera_btc_pubkey_keyid", "src/btc/key.c:fingera_btc_key_fingerprint", "src/btc/key.c:fingera_btc_pubkey_fingerprint"]}
{"id": "C61", "title": "Master keys follow BIP32", "statement": "fingera_exkey_init fills the extended key with the two halves of HMAC-SHA512(key \"Bitcoin seed\", seed) as secret key and chain code, and depth, fingerprint and child number 0.", "quantifier": "all seeds of every length, every previous content of the key structure, both byte orders", "why_tests_cant": "seeds have unbounded length; a vector fixes one", "anchors": ["src/btc/exkey.c: fingera_exkey_init"]}
{"id": "C62", "title": "Depth of derived keys never wraps", "statement": "A successful fingera_exkey_derive or fingera_expubkey_derive yields a key whose depth is the parent's plus one as a number; a key that cannot go deeper (depth 255) is refused.", "quantifier": "all extended keys, indices and fingerprints", "why_tests_cant": "derivation chains of 256 keys are not exercised by vectors", "anchors": ["src/btc/exkey.c: fingera_exkey_derive, fingera_expubkey_derive"]}
{"id": "C63", "title": "Accepted extended key texts carry valid keys", "statement": "fingera_exkey_from_string and fingera_expubkey_from_string return non-zero only for texts whose key is valid as BIP32 requires: byte 0 before a secret key in 1..n-1, or the compressed encoding of a curve point; no two texts (blanks apart) are accepted as the same key.", "quantifier": "all strings, all three networks", "why_tests_cant": "published invalid-key vectors cover a handful of strings", "anchors": ["src/btc/exkey.c: fingera_exkey_from_string, fingera_exkey_decode, fingera_expubkey_from_string"]}
{"id": "C64", "title": "Every key function gets a live, capable context", "statement": "Between fingera_btc_key_init and fingera_btc_key_uninit every exported key function passes libsecp256k1 a live context that has the capability (signing, verification) each library call needs; called outside, each of them dereferences a NULL context.", "quantifier": "all proper histories of calls, all exported functions that use a context, with and without NDEBUG", "why_tests_cant": "histories are unbounded; a wrong context only shows in builds with separate capabilities", "anchors": ["src/btc/key.c: fingera_btc_key_init, fingera_btc_key_uninit, secp256k1_context_sign, secp256k1_context_verify"]}
{"id": "C65", "title": "Signatures verify", "statement": "A signature returned by fingera_btc_key_sign is accepted by fingera_btc_key_verify with the public key fingera_btc_key_get_pub computes for the same key, also after encoding and decoding signature and public key in either form.", "quantifier": "all valid keys, all hashes, any number of signing attempts", "why_tests_cant": "2^512 key/hash pairs; every path through grinding", "anchors": ["src/btc/key.c:fingera_btc_key_sign", "src/btc/key.c:fingera_btc_key_verify", "src/btc/key.c:fingera_btc_key_get_pub"]}
{"id": "C66", "title": "Verification is ECDSA verification", "statement": "fingera_btc_key_verify returns non-zero exactly when the pair (r,s) is a valid ECDSA signature (SEC 1, 4.1.4) of the hash under the public key, whether s is in the lower or upper half; the zero signature left by a failed decoding is never accepted.", "quantifier": "all points of the curve, all hashes, all signature objects", "why_tests_cant": "2^1000 inputs; a wrong acceptance is a forgery no test looks for", "anchors": ["src/btc/key.c:fingera_btc_key_verify"]}
{"id": "C67", "title": "Public keys survive encoding", "statement": "fingera_btc_pubkey_decode inverts fingera_btc_pubkey_encode in both forms for every point, and accepts exactly the SEC 1 encodings (compressed, uncompressed, hybrid) of curve points.", "quantifier": "all points and all inputs of 33 or 65 bytes", "why_tests_cant": "2^256 points, 2^520 inputs", "anchors": ["src/btc/key.c:fingera_btc_pubkey_encode", "src/btc/key.c:fingera_btc_pubkey_decode"]}
{"id": "C68", "title": "Signatures survive encoding", "statement": "fingera_btc_signature_encode writes the strict DER encoding of every signature object, never more than 72 bytes, and fingera_btc_signature_decode returns the object.", "quantifier": "all signature objects, anything following the encoding", "why_tests_cant": "2^512 signatures", "anchors": ["src/btc/key.c:fingera_btc_signature_encode", "src/btc/key.c:fingera_btc_signature_decode"]}
{"id": "C69", "title": "Signing is deterministic and finds the first low-R signature", "statement": "fingera_btc_key_sign returns the first signature with low R in the sequence of RFC 6979 signatures with additional data none, 1, 2, 3, ... (32-bit little-endian counter followed by zeros), the same on every call, build and byte order, and finds it whenever there is one; it fails no assertion for a valid key.", "quantifier": "all valid keys, all hashes, any number of attempts", "why_tests_cant": "the number of retries is unbounded; a counter bug shows only in later attempts", "anchors": ["src/btc/key.c:fingera_btc_key_sign"]}
{"id": "C70", "title": "Bech32 detects up to four wrong characters", "statement": "Of two strings of the same length with the same human-readable part that differ in one to four characters anywhere after it (letter case ignored), fingera_bech32_decode accepts at most one.", "quantifier": "all pairs of strings, all positions and values of the up to four substituted characters", "why_tests_cant": "a distance property over 2.5 million position sets times 31^4 values for every codeword", "anchors": ["src/btc/bech32.c:fingera_bech32_decode", "src/btc/bech32.c:poly_mod"]}
{"id": "C71", "title": "Secret temporaries are wiped", "statement": "Whenever a function of the library that handles secret data (hash functions, HMAC, Base58 and Base58Check, secret keys and extended secret keys to and from text, derivation, initialisation of the key context) returns, on success and on error, the heap blocks and local arrays into which it copied its input or values computed from it have been overwritten with the pattern of fingera_cleanse; digests of the data apart.", "quantifier": "all inputs, all return paths, all networks, both byte orders", "why_tests_cant": "tests see results, not the stack and heap left behind; the error paths are as many as the malformed inputs", "anchors": ["src/base58.c:fingera_to_base58", "src/base58.c:fingera_from_base58", "src/hash/sha2.c:fingera_hmac_sha512", "src/btc/key.c:fingera_btc_key_from_string", "src/btc/key.c:fingera_btc_key_derive", "src/btc/exkey.c:fingera_exkey_from_string", "src/cleanse.c:fingera_cleanse"]}
{"id": "C72", "title": "No leak, no double free", "statement": "Whenever Base58, Base58Check, the address decoder or the text functions for keys and extended keys return, every heap block obtained during the call has been freed exactly once and nothing else has been freed, on success and on every error path.", "quantifier": "all inputs and sizes, all return paths", "why_tests_cant": "the blocks are on the heap only for long inputs, and each early return is a separate chance to leak", "anchors": ["include/fingera_libc/sl/buffer.h:DECLARE_BUFFER", "include/fingera_libc/sl/buffer.h:FREE_BUFFER", "src/base58.c:fingera_from_base58", "src/btc/base58_check.c:fingera_to_base58_check", "src/btc/address.c:decode_bech32"]}
{"id": "C73", "title": "Texts are recognisable by their beginning and length", "statement": "The encoders write P2PKH addresses beginning with 1 (25 to 34 characters) on mainnet and m or n (34) on testnet and regtest, P2SH addresses beginning with 3 (34) and 2 (35), witness version 0 addresses beginning with bc1q, tb1q, bcrt1q, secret keys beginning with 5 (51) or K, L (52) on mainnet and 9 (51) or c (52) elsewhere, and extended keys of 111 characters beginning with xprv, xpub, tprv or tpub.", "quantifier": "all hashes, programs, keys, extended keys, all networks, both byte orders", "why_tests_cant": "holds for 2^160 hashes and 2^256 keys including those near the boundaries of the leading digit; tests sample a few", "anchors": ["src/btc/address.c:fingera_to_address_pubkey", "src/btc/address.c:fingera_to_address_script", "src/btc/key.c:fingera_btc_key_to_string", "src/btc/exkey.c:fingera_exkey_to_string", "src/btc/chain_parameters.c"]}
{"id": "C74", "title": "Random bytes on Windows", "statement": "Built for Windows, with the BCrypt or the older Crypt provider, fingera_os_rand_bytes fills all of the size bytes it is given with bytes from the system's generator and touches nothing behind them, or ends the process if the provider cannot be opened or the generator fails.", "quantifier": "all sizes and buffers, all behaviours of the provider and the generator, both implementations", "why_tests_cant": "a test would have to request more than 4 GiB and make the system's generator fail", "anchors": ["src/random.c:fingera_os_rand_bytes"]}
{"id": "C75", "title": "System handles are released", "statement": "Whenever fingera_os_rand_bytes returns, on any of the three platforms, it has opened one descriptor or provider handle, used only that one while it was open, and closed it exactly once; on Unix the reads delivered exactly the number of bytes asked for in total, none of them empty.", "quantifier": "all sizes, all sequences of replies of the system", "why_tests_cant": "leaks show only after thousands of calls, and the replies of the system cannot be scripted in a test", "anchors": ["src/random.c:fingera_os_rand_bytes"]}
{"id": "C76", "title": "A text of one kind is not accepted as another kind", "statement": "No text of a secret key or extended key is accepted as an address, no text of an address, secret key or extended key of the other sort is accepted as an extended private or public key, and no text of an address or extended key is accepted as a secret key, on the same or another network; the refusal is an orderly error return.", "quantifier": "all hashes, secret keys, extended keys, all pairs of networks, both byte orders, all output buffers", "why_tests_cant": "all the texts share one checksummed format and differ only in prefix and length, for 2^160 to 2^592 payloads", "anchors": ["src/btc/address.c:fingera_btc_address_decode", "src/btc/key.c:fingera_btc_key_from_string", "src/btc/exkey.c:fingera_exkey_from_string", "src/btc/exkey.c:fingera_expubkey_from_string"]}
{"id": "C77", "title": "The key functions may be used by many threads between init and uninit", "statement": "After any proper history of calls that leaves the key library initialised, any number of threads may call any of its functions other than init and uninit, any number of times and in any interleaving: every call has a live context with the capability it needs from beginning to end, nobody writes shared memory, so there is no data race, and no thread waits for another. Init and uninit must not overlap with anything: for every function there is a schedule in which a concurrent uninit takes its context away, and two overlapping inits leak contexts.", "quantifier": "all proper call histories, all numbers of threads, all sequences of calls of each thread, all schedules, assertions compiled in or out", "why_tests_cant": "the number of interleavings is exponential and a test sees one of them", "anchors": ["src/btc/key.c:fingera_btc_key_init", "src/btc/key.c:fingera_btc_key_uninit", "src/btc/key.c:secp256k1_context_sign", "src/btc/key.c:secp256k1_context_verify"]}
{"id": "C78", "title": "Hex, Base64 and Base32 texts may be decoded onto themselves", "statement": "When the output of the hex, Base64, URL-safe Base64, Base32 or raw Base32 decoder begins where the text begins, or before it, in the same object, the decoder returns the same count and writes the same bytes as with a copy of the text elsewhere (and misbehaves only when it would then). In particular a text made by the matching encoder is replaced by the encoded bytes. An output that begins inside the text does not have this property.", "quantifier": "all objects, all offsets and lengths of the text, all offsets of the output not behind the text, both signednesses of char", "why_tests_cant": "whether a character is overwritten before it is read depends on lengths, offsets and contents; a test checks a few of them", "anchors": ["src/hex.c:fingera_from_hex", "src/base64.c:fingera_from_base64", "src/base64.c:fingera_from_base64_urlsafe", "src/base32.c:fingera_from_base32", "src/base32.c:fingera_from_base32_raw"]}
{"id": "C79", "title": "A child key may replace its parent", "statement": "Deriving an extended public or private key onto the structure that holds the parent gives the child of BIP 32, along a path of any length, exactly as with a second structure. When there is no child the call reports it, and the parent's chain code (and secret key) is lost.", "quantifier": "all extended keys, child indices, fingerprints and paths, assertions compiled in or out, both byte orders", "why_tests_cant": "a read after the overwrite shows only for particular layouts, and a memcpy of a region onto itself is undefined by the letter of C while every test of it passes", "anchors": ["src/btc/exkey.c:fingera_exkey_derive", "src/btc/exkey.c:fingera_expubkey_derive", "src/btc/key.c:fingera_btc_key_derive", "src/btc/key.c:fingera_btc_pubkey_derive"]}
{"id": "C80", "title": "Keys, extended keys and addresses are converted without the heap", "statement": "Writing any secret key, extended key or address, and reading any text of up to 174 characters as one (135 for addresses), requests no memory; the results do not depend on whether malloc would succeed, so these conversions work when memory is exhausted. Address texts of up to 174 characters are decoded with the same result whatever malloc answers. More generally Base58 of up to 92 bytes and Base58 texts of up to 174 characters stay on the stack.", "quantifier": "all keys, hashes, texts, networks, output buffers, and all allocators (any sequence of answers to any requests)", "why_tests_cant": "a test would have to fail every allocation for every key and text; the answers of an allocator are an infinite family", "anchors": ["include/fingera_libc/sl/buffer.h:DECLARE_BUFFER", "src/base58.c:fingera_to_base58", "src/base58.c:fingera_from_base58", "src/btc/base58_check.c:fingera_to_base58_check", "src/btc/key.c:fingera_btc_key_to_string", "src/btc/exkey.c:fingera_exkey_to_string", "src/btc/address.c:decode_bech32"]}
{"id": "C81", "title": "Exhausted memory is survived", "statement": "When malloc refuses, a conversion does not misbehave. (Violated: the answer of malloc is not checked; every Base58 or Base58Check conversion that requests memory, i.e. of more than 92 bytes behind the leading zeros or of texts with more than 174 characters behind blanks and '1's, goes through the null pointer.) When every request is served, all conversions give the results of the other properties.", "quantifier": "all buffers and texts, all allocators", "why_tests_cant": "a test covers one pattern of failures; this ranges over all patterns and all sizes, and gives the exact sizes from which memory is requested", "anchors": ["include/fingera_libc/sl/buffer.h:DECLARE_BUFFER", "src/base58.c:fingera_to_base58", "src/base58.c:fingera_from_base58", "src/btc/base58_check.c:fingera_to_base58_check", "src/btc/base58_check.c:fingera_from_base58_check", "src/btc/address.c:fingera_btc_address_decode"]}
{"id": "C82", "title": "Announced lengths do not wrap around", "statement": "For the size of every object that can exist on a machine (less than half its address space), the announced buffer lengths of hex, Base64, Base32, Bech32 and Base58 are the exact ones in the arithmetic of its size_t. (Violated for Base58, whose size is multiplied by 138 or 733 first: on a 32-bit machine a buffer of 31,122,952 bytes or a text of 5,859,437 characters is announced 2 bytes. The lengths are right if and only if the product fits.)", "quantifier": "all widths of size_t from 16 bits, all sizes of objects", "why_tests_cant": "the sizes at which the arithmetic wraps around are too large, and differ from machine to machine", "anchors": ["include/fingera_libc/hex.h:fingera_to_hex_length", "include/fingera_libc/base64.h:fingera_to_base64_length", "include/fingera_libc/base32.h:fingera_to_base32_length", "include/fingera_libc/base58.h:fingera_to_base58_length", "include/fingera_libc/base58.h:fingera_from_base58_length", "include/fingera_libc/btc/base58_check.h:fingera_to_base58_check_length", "include/fingera_libc/btc/bech32.h:fingera_bech32_encode_length"]}
{"id": "C83", "title": "A digest may overwrite what it was computed from", "statement": "SHA-1, RIPEMD-160, SHA-256, SHA-512, the two HMACs, HASH160, HASH256 and the BIP 32 hash may be given an output that overlaps their inputs in any way (same buffer, partly overlapping, key over code): they write the digest of the inputs as they were before the call and change nothing else.", "quantifier": "all objects, all lengths and all relative positions of inputs and output, both byte orders", "why_tests_cant": "a test covers a few overlaps and lengths; a read after the first write would show only for some of them", "anchors": ["src/hash/sha1.c:fingera_sha1", "src/hash/sha2.c:fingera_sha2_256", "src/hash/sha2.c:fingera_sha2_512", "src/hash/sha2.c:fingera_hmac_sha256", "src/hash/sha2.c:fingera_hmac_sha512", "src/hash/ripemd160.c:fingera_ripemd160", "src/btc/hash.c:fingera_btc_hash160", "src/btc/hash.c:fingera_btc_hash256", "src/btc/hash.c:fingera_btc_bip32_hash"]}
{"id": "C84", "title": "Base58 texts, addresses and secret keys are converted in place", "statement": "Conversion to and from Base58, Base58Check and the secret key text, and the five address encoders, give the same result when input and output overlap in any way as with separate buffers. (Violated by the address decoder: it reads the text a second time, as Bech32, after the Base58 attempt may have written the output; a witness address without the characters 0 and l is rejected when it is decoded over itself. Base58 addresses, and witness addresses with a 0 or l, are decoded.)", "quantifier": "all objects, lengths, offsets, texts and networks", "why_tests_cant": "whether a text survives depends on its characters and on the offsets; tests see a few", "anchors": ["src/base58.c:fingera_to_base58", "src/base58.c:fingera_from_base58", "src/btc/base58_check.c:fingera_to_base58_check", "src/btc/base58_check.c:fingera_from_base58_check", "src/btc/key.c:fingera_btc_key_to_string", "src/btc/key.c:fingera_btc_key_from_string", "src/btc/address.c:fingera_btc_address_decode"]}
{"id": "C85", "title": "Hash functions and the alignment of words", "statement": "The hash functions take byte arrays. On a machine (or for a compiler) where uint32_t and uint64_t have alignments a4 and a8, every call with large enough buffers is defined and writes the digest, wherever the byte arrays lie. (Violated: outputs and the local block buffers are converted to uint32_t* / uint64_t*. The exact condition is proved: a call writes the digest if the output address and the addresses of the local byte arrays are aligned, and is undefined otherwise, for every message; the addresses of messages, keys and chain codes do not matter. Base58Check conversions hash into local arrays of char, so that only the compiler's choice of their places makes them defined.)", "quantifier": "all alignments, addresses, byte orders, messages, keys and lengths", "why_tests_cant": "a test runs on one machine with one placement; on x86 nothing is observed until the compiler uses an aligned vector instruction", "anchors": ["src/hash/sha1.c:fingera_sha1", "src/hash/ripemd160.c:fingera_ripemd160", "src/hash/sha2.c:sha256_final", "src/hash/sha2.c:sha512_final", "src/hash/sha2.c:fingera_sha2_256", "src/hash/sha2.c:fingera_sha2_512", "src/hash/sha2.c:fingera_hmac_sha256", "src/hash/sha2.c:fingera_hmac_sha512", "src/hash/sha2.c:_hash256_d64_transform", "src/btc/hash.c:fingera_btc_hash256", "src/btc/base58_check.c:fingera_to_base58_check", "src/btc/base58_check.c:fingera_from_base58_check"]}
{"id": "C86", "title": "A failing random source is reported and ends the process", "statement": "When the system's random source fails, a call for random bytes never returns with the buffer unfilled: exactly one report is written to stderr - FATAL, the failing step with its result, the function, file and line, then the system's text and number for errno if it is not 0, on Windows also the text and the eight-digit hexadecimal code of GetLastError() - and the process ends with status -1. When nothing fails nothing is written. (Violated on Windows: FormatMessageA failing leaves an uninitialised pointer that is printed and freed, and the BCrypt messages pass an unsigned int for %lu.)", "quantifier": "all values of errno and GetLastError(), all texts of the system, all sequences of replies of read before the failure, all sizes and buffer contents", "why_tests_cant": "the random source does not fail in tests, the process would end with it, and the failure may come after any number of successful reads", "anchors": ["src/error.c:fingera_fatal", "include/fingera_libc/error.h:FINGERA_FATAL", "src/random.c:fingera_os_rand_bytes"]}
{"id": "C87", "title": "Different values have different texts", "statement": "If two successful calls of an encoder write the same text, they were given the same value: hexadecimal (in any letter case), Base64, URL-safe Base64, Base32, groups of five bits, Base58, Base58Check (prefix and data together), Bech32 (any human-readable parts), varints, zigzag integers, secret keys in DER, public keys and signatures, extended keys as bytes. For the texts of Bitcoin - five kinds of address, secret keys with the compression flag, extended secret and public keys - the text also determines which function wrote it and the network (the two networks for testing share the texts that are not witness addresses).", "quantifier": "all pairs of values, lengths, networks, kinds, byte orders and output buffers", "why_tests_cant": "a collision is a statement about all pairs of values; a test compares a few", "anchors": ["src/hex.c:fingera_to_hex", "src/base64.c:fingera_to_base64", "src/base64.c:fingera_to_base64_urlsafe", "src/base32.c:fingera_to_base32", "src/base32.c:fingera_to_base32_raw", "src/base58.c:fingera_to_base58", "src/btc/base58_check.c:fingera_to_base58_check", "src/btc/bech32.c:fingera_bech32_encode", "src/compress_integer.c", "src/btc/key.c:fingera_btc_key_encode", "src/btc/key.c:fingera_btc_pubkey_encode", "src/btc/key.c:fingera_btc_signature_encode", "src/btc/key.c:fingera_btc_key_to_string", "src/btc/address.c", "src/btc/exkey.c:fingera_exkey_to_string", "src/btc/exkey.c:fingera_expubkey_to_string"]}
{"id": "C88", "title": "Texts may be produced and read piece by piece", "statement": "The hexadecimal text of a piece of data followed by that of the rest is the text of the whole; the same holds for Base64 and URL-safe Base64 if the first piece has a multiple of three bytes, for Base32 and groups of five bits if it has a multiple of five. When reading, if the first piece of a text (hexadecimal; Base64 of a multiple of four characters that does not end in padding) was decoded completely, the bytes and counts of both pieces together are those of the whole text, however far the second piece is legal.", "quantifier": "all data, all pieces with the stated lengths, all contents and sizes of the output buffers from the announced size on", "why_tests_cant": "a statement about every place to cut every input", "anchors": ["src/hex.c:fingera_to_hex", "src/hex.c:fingera_from_hex", "src/base64.c:fingera_to_base64", "src/base64.c:fingera_to_base64_urlsafe", "src/base64.c:fingera_from_base64", "src/base64.c:fingera_from_base64_urlsafe", "src/base32.c:fingera_to_base32", "src/base32.c:fingera_to_base32_raw"]}
{"id": "C89", "title": "Owner and watcher of an extended key agree", "statement": "The owner of an extended key publishes the text of its public half. Whoever reads the text, on any machine, finds along every path of non-hardened steps exactly the public keys of the secret keys the owner finds, or both find that a step fails; the old-style and witness addresses both compute from them are the same, and the owner's signatures are accepted. The text of the whole extended key gives back the same secret keys along every path, hardened steps included. Reading the address of a key gives the kind 'public key' and HASH160 of the compressed public key.", "quantifier": "all valid extended keys, networks, paths of any length, byte orders and builds of both machines, buffers, messages", "why_tests_cant": "an equation between two long computations for every key and every path", "anchors": ["src/btc/exkey.c:fingera_exkey_get_pub", "src/btc/exkey.c:fingera_exkey_derive", "src/btc/exkey.c:fingera_expubkey_derive", "src/btc/exkey.c:fingera_expubkey_to_string", "src/btc/exkey.c:fingera_expubkey_from_string", "src/btc/exkey.c:fingera_exkey_to_string", "src/btc/exkey.c:fingera_exkey_from_string", "src/btc/key.c:fingera_btc_key_keyid", "src/btc/key.c:fingera_btc_pubkey_keyid", "src/btc/key.c:fingera_btc_pubkey_decode", "src/btc/address.c:fingera_to_address_pubkey", "src/btc/address.c:fingera_to_address_witnessv0_keyhash", "src/btc/address.c:fingera_btc_address_decode"]}
{"id": "C90", "title": "A mistyped witness address is not taken for another witness address", "statement": "Replace between one and four characters of a witness address (a change of letter case is no replacement), or any characters within six consecutive ones behind the human-readable part and the separator. Whatever fingera_btc_address_decode makes of the text, it does not report a kind of witness address.", "quantifier": "all networks, versions, programs, error positions and replacement characters (any byte except NUL), contents of the stack, builds and output buffers", "why_tests_cant": "the number of error patterns is astronomical; the guarantee is a property of the code's minimum distance", "anchors": ["src/btc/address.c:fingera_btc_address_decode", "src/btc/bech32.c:fingera_bech32_decode"]}
{"id": "C91", "title": "What was read from a text is written again as that text", "statement": "If a text was read to its end by the hex, Base64, URL-safe Base64 or Base32 decoder, or accepted as secret key (WIF), extended public key, extended private key, key address or script address, then the corresponding encoder applied to the result writes the text again (letter case of hex and Base32 and blanks around Base58 texts apart). So no two texts that differ otherwise are read as the same value.", "quantifier": "all texts, buffers and what was in them, networks, byte orders, builds", "why_tests_cant": "texts that are not the output of the encoder are unbounded in number and each decoder has its own tolerance", "anchors": ["src/hex.c:fingera_from_hex", "src/base64.c:fingera_from_base64", "src/base64.c:fingera_from_base64_urlsafe", "src/base32.c:fingera_from_base32", "src/btc/key.c:fingera_btc_key_from_string", "src/btc/exkey.c:fingera_exkey_from_string", "src/btc/exkey.c:fingera_expubkey_from_string", "src/btc/address.c:fingera_btc_address_decode"]}
{"id": "C92", "title": "Hashing and key derivation give no secrets away through branches and addresses", "statement": "Someone who sees which way every branch goes and which offsets of which arrays are read and written, but no contents, learns from a call of a hash function only the length of the message, from HMAC only the lengths of key and message, from the double SHA-256 of many blocks only their number, from the BIP32 hash nothing, from the making of a master key only the length of the seed, from a derivation step on a private key only whether the step is hardened (and, for extended keys, whether it succeeds), and nothing from writing an extended key as bytes and reading it back. Key, chain code, seed, message and what buffers held before leave no trace.", "quantifier": "all messages, keys, seeds, chain codes, indices, buffer contents, byte orders", "why_tests_cant": "a statement about pairs of executions for all secrets; a data-dependent branch can be taken for one value in 2^256", "anchors": ["src/hash/sha2.c:fingera_sha2_256", "src/hash/sha2.c:fingera_sha2_512", "src/hash/sha2.c:fingera_hmac_sha256", "src/hash/sha2.c:fingera_hmac_sha512", "src/hash/sha1.c:fingera_sha1", "src/hash/ripemd160.c:fingera_ripemd160", "src/btc/hash.c:fingera_btc_hash160", "src/btc/hash.c:fingera_btc_hash256", "src/btc/hash.c:fingera_btc_bip32_hash", "src/btc/hash.c:fingera_btc_hash256_d64", "src/btc/key.c:fingera_btc_key_derive", "src/btc/exkey.c:fingera_exkey_init", "src/btc/exkey.c:fingera_exkey_derive", "src/btc/exkey.c:fingera_exkey_encode", "src/btc/exkey.c:fingera_exkey_decode"]}
{"id": "C93", "title": "Writing a secret as text gives it away only to the reader of the text", "statement": "Someone who sees which way every branch goes and which offsets of which arrays are read and written learns from a call of the hexadecimal, Base64 (both kinds), Base32, Base58, WIF and extended-key writers nothing about the data but its length. (Violated: for hexadecimal, Base64 and Base32 it holds apart from the look-ups of the characters; with them, and for the others, two runs look the same only for the same data.)", "quantifier": "all data, keys, networks, byte orders, output buffers", "why_tests_cant": "a statement about pairs of executions for all secrets", "anchors": ["src/hex.c:fingera_to_hex", "src/base64.c:fingera_to_base64", "src/base64.c:fingera_to_base64_urlsafe", "src/base32.c:fingera_to_base32", "src/base58.c:fingera_to_base58", "src/btc/base58_check.c:fingera_to_base58_check", "src/btc/key.c:fingera_btc_key_to_string", "src/btc/exkey.c:fingera_exkey_to_string"]}
{"id": "C94", "title": "Every writer needs exactly the bytes it writes", "statement": "A call that writes a text or a digest into an object supplied by the caller - the hexadecimal, Base64, Base32, Base58, Base58Check, Bech32 and variable-length-integer writers, the hash functions, HMAC, the Bitcoin and BIP32 hashes, the Merkle layer, and the writers of extended keys, WIF, public keys, DER private keys and signatures - runs with defined behaviour exactly when the object has as many bytes as the result, whatever the documented size is, and then it writes the result to the front of the object and leaves the rest alone. In any shorter object it writes past the end.", "quantifier": "all data, keys, messages, networks, byte orders, and output objects of every length and content", "why_tests_cant": "ranges over all inputs and all sizes of the output object; an overrun is undefined behaviour that a test need not notice", "anchors": ["src/hex.c:fingera_to_hex", "src/base64.c:fingera_to_base64", "src/base64.c:fingera_to_base64_urlsafe", "src/base32.c:fingera_to_base32", "src/base32.c:fingera_to_base32_raw", "src/base58.c:fingera_to_base58", "src/btc/base58_check.c:fingera_to_base58_check", "src/btc/bech32.c:fingera_bech32_encode", "src/compress_integer.c:fingera_encode_varint", "src/hash/sha1.c:fingera_sha1", "src/hash/ripemd160.c:fingera_ripemd160", "src/hash/sha2.c:fingera_sha2_256", "src/hash/sha2.c:fingera_sha2_512", "src/hash/sha2.c:fingera_hmac_sha256", "src/btc/hash.c:fingera_btc_hash256_d64", "src/btc/exkey.c:fingera_exkey_encode", "src/btc/exkey.c:fingera_exkey_to_string", "src/btc/key.c:fingera_btc_key_to_string", "src/btc/key.c:fingera_btc_key_encode", "src/btc/key.c:fingera_btc_signature_encode"]}
{"id": "C95", "title": "Every reader of texts needs exactly the bytes it writes", "statement": "A call that turns a text into bytes - hexadecimal, Base64 and its URL-safe form, Base32, Base58, Base58Check, Bech32 - runs with defined behaviour exactly when the object for the bytes is as long as the bytes decoded before the first illegal character (for Base58Check, the four bytes of the checksum included), whatever the length function announces for a text of that length, and it leaves the rest of the object alone. In any shorter object it writes past the end.", "quantifier": "all texts, legal or not (Base32: ASCII where char is signed; Base58: texts that denote bytes, not over-long, see C16), all memory behind them, all output objects of every length and content", "why_tests_cant": "ranges over all texts and all sizes of the output object; an overrun is undefined behaviour that a test need not notice", "anchors": ["src/hex.c:fingera_from_hex", "src/base64.c:fingera_from_base64", "src/base64.c:fingera_from_base64_urlsafe", "src/base32.c:fingera_from_base32", "src/base58.c:fingera_from_base58", "src/btc/base58_check.c:fingera_from_base58_check", "src/btc/bech32.c:fingera_bech32_decode"]}
{"id": "C96", "title": "The Bech32 decoder says what is wrong with a text", "statement": "For every NUL-terminated text the Bech32 decoder returns -1 exactly if it has a character outside 33..126 or letters of both cases; otherwise -2 exactly if it is longer than 90 characters, has no separator, nothing before the last separator or fewer than six characters behind it; otherwise -3 exactly if the room announced for the human-readable part is too small; otherwise -4 exactly if a character behind the separator is not in the alphabet; otherwise -5 exactly if the checksum is wrong; otherwise the number of data values. In the first three cases no object and not the size is changed; in the others the lower-case human-readable part, its size and the values of the leading legal data characters have been written, and nothing else.", "quantifier": "all texts, all memory behind the terminator, all announced sizes, all output objects", "why_tests_cant": "a complete case distinction over all texts", "anchors": ["src/btc/bech32.c:fingera_bech32_decode", "include/fingera_libc/btc/bech32.h:fingera_bech32_decode"]}
{"id": "C97", "title": "The announced length delimits the text", "statement": "A call that reads a text with an announced length reads those characters and no others: the result is the same whatever lies behind them in memory, and no terminator is needed. (Holds for hexadecimal, Base64 and URL-safe Base64. Base32 looks for '=' up to the next NUL and decodes everything before it; base58, and with it Base58Check, WIF and extended-key import, reads up to the next NUL and uses the announced length only to size its work area, so that a length that is too small decodes more than was announced or fails an assertion; Bech32 looks for the last '1' up to the next NUL. All of these read out of bounds where no NUL follows.)", "quantifier": "all texts, all announced lengths, all memory contents behind the text, all output objects", "why_tests_cant": "ranges over all memory behind the text; unit tests pass NUL-terminated literals with their exact length", "anchors": ["src/hex.c:fingera_from_hex", "src/base64.c:fingera_from_base64", "src/base32.c:base32_strlen", "src/base32.c:fingera_from_base32", "src/base58.c:fingera_from_base58", "src/btc/base58_check.c:fingera_from_base58_check", "src/btc/bech32.c:fingera_bech32_decode", "src/btc/key.c:fingera_btc_key_from_string", "src/btc/exkey.c:fingera_exkey_from_string"]}
{"id": "C98", "title": "Release builds behave like debug builds", "statement": "A build with NDEBUG does the same as a build with assertions: every call that does not fail an assertion in the debug build gives the same result and the same memory in both, and assertions are not what stands between an argument a caller can pass and a wrong result. (The first half holds for every function. The second holds for base58 texts whose length is announced correctly, for every writer and for invalid secret keys in derivation, key identifiers and fingerprints, which use explicit tests; it fails in five places: base58 with an announced length that is too small silently drops the leading bytes, so that Base58Check, WIF, xprv and xpub import accept texts whose checksum does not match; Bech32 encoding of values above 32 reads behind its alphabet, the value 32 writes a NUL into the text; signing with an invalid key reports success and yields the signature (0,0), which verifies under no key; deriving a hardened child of a public key returns a key as if it were not hardened; wrong sizes are refused by a return value where the debug build stops.)", "quantifier": "all inputs, memory contents, announced lengths, keys, child numbers, histories of calls, both builds", "why_tests_cant": "ranges over all inputs of two builds; unit tests run one of them, and an assertion that fails ends the test", "anchors": ["src/base58.c:fingera_from_base58", "src/base58.c:fingera_to_base58", "src/btc/bech32.c:fingera_bech32_encode", "src/btc/address.c:fingera_to_address_witnessv0_keyhash", "src/btc/key.c:fingera_btc_key_sign", "src/btc/key.c:fingera_btc_pubkey_derive", "src/btc/key.c:fingera_btc_key_encode", "src/btc/exkey.c:fingera_exkey_derive"]}
{"id": "C99", "title": "A character too many or too few in a Bech32 text or witness address is noticed", "statement": "If a Bech32 text or a witness address is accepted, the same text with one character inserted or left out among its last six is refused, or at least never read as a different payment destination. (True except in one exact case: between two accepted texts that differ by a character inserted among the last six, the character is a q and what follows it is q...q and a final p. In that case both texts really are accepted, for any number of q's; an address of version 0 is then either refused or read as the same key hash, an address of version 1 to 16 can be read as another, longer witness program.)", "quantifier": "all texts, all places among the last six characters, all characters, all numbers of inserted or removed q's, all networks, versions and witness programs, all memory contents", "why_tests_cant": "ranges over all texts and edits; random insertions are accepted with probability 2^-30, so tests that try some never meet the case in which they are always accepted", "anchors": ["src/btc/bech32.c:fingera_bech32_decode", "src/btc/address.c:fingera_btc_address_decode"]}
{"id": "C100", "title": "Reading texts does not depend on the locale", "statement": "In a program that calls setlocale, texts are read as in the default \"C\" locale: a text accepted in the C locale is accepted with the same result in every locale, no locale turns a text into another key, payload or address, and nothing is accepted in one locale and refused in another. (The first two hold for base58, Base58Check, WIF, xprv, xpub and addresses in every locale that follows the C standard, for Bech32 where the locale lowers the letters of the text as ASCII does. The third fails: a character that is a space only in the locale, such as the no-break space of Latin-1 where char is unsigned, is skipped around base58 texts; and in Turkish and Azerbaijani locales a valid Bech32 text in upper case with an I in its prefix is refused with a checksum error.)", "quantifier": "all locales the C standard allows, all texts, lengths and memory contents, both kinds of char, all networks", "why_tests_cant": "ranges over all locales and texts; tests run in the C locale", "anchors": ["src/base58.c:fingera_from_base58", "src/btc/bech32.c:fingera_bech32_decode", "src/btc/base58_check.c:fingera_from_base58_check", "src/btc/key.c:fingera_btc_key_from_string", "src/btc/exkey.c:fingera_exkey_from_string", "src/btc/exkey.c:fingera_expubkey_from_string", "src/btc/address.c:fingera_btc_address_decode"]}
{"id": "C101", "title": "Reading a secret from its text does not give it away to an observer of the machine", "statement": "What an observer of the machine sees (the directions of branches and the offsets of array accesses, as in C92 and C93) while a secret is read from its text, in hexadecimal, Base64, Base32, base58, wallet import format or as an extended private key, depends on the lengths only. (It does not: for hexadecimal, Base64 and Base32 apart from the look-ups of the characters it does; with them, and for the others, two readings look the same only if the same bytes, key and flag or extended key come out, so the secret follows from what is seen.)", "quantifier": "all texts, data, keys, extended keys, networks, lengths and memory contents, both build modes, byte orders and kinds of char", "why_tests_cant": "a statement about all pairs of runs, and about what is observed of them rather than their results", "anchors": ["src/hex.c:fingera_from_hex", "src/base64.c:fingera_from_base64", "src/base64.c:fingera_from_base64_urlsafe", "src/base32.c:fingera_from_base32", "src/base58.c:fingera_from_base58", "src/btc/base58_check.c:fingera_from_base58_check", "src/btc/key.c:fingera_btc_key_from_string", "src/btc/exkey.c:fingera_exkey_from_string"]}
{"id": "C102", "title": "How much a call does is bounded by the lengths of its arguments", "statement": "The number of bytes a call reads and writes and of branches it takes (to which its running time is proportional, libsecp256k1 and fwrite apart) is at most linear in the length of the message, data or text for the hash functions, HMAC, master keys, hexadecimal, Base64, Base32 and Bech32, at most quadratic in the length of data or text for base58, Base58Check and everything written or read in it, addresses included, whether the text is accepted or not, and bounded by a constant for integers, for writing keys and extended keys and for writing witness addresses. Base58 does take quadratic time, for all data and texts, so that the length of a text from outside must be limited before it is decoded.", "quantifier": "all arguments, lengths and memory contents for which the call is defined, both build modes, byte orders and kinds of char, all networks", "why_tests_cant": "bounds over all inputs of all lengths; a benchmark shows some", "anchors": ["src/hash/sha1.c:fingera_sha1", "src/hash/sha2.c:fingera_sha2_256", "src/hash/sha2.c:fingera_sha2_512", "src/hash/sha2.c:fingera_hmac_sha256", "src/hash/sha2.c:fingera_hmac_sha512", "src/hash/ripemd160.c:fingera_ripemd160", "src/btc/hash.c:fingera_btc_hash256_d64", "src/hex.c:fingera_to_hex", "src/hex.c:fingera_from_hex", "src/base58.c:fingera_to_base58", "src/base58.c:fingera_from_base58", "src/btc/key.c:fingera_btc_key_from_string", "src/btc/key.c:fingera_btc_key_to_string", "src/btc/exkey.c:fingera_exkey_from_string", "src/btc/exkey.c:fingera_exkey_to_string", "src/base64.c:fingera_to_base64", "src/base64.c:fingera_from_base64", "src/base32.c:fingera_to_base32", "src/base32.c:fingera_from_base32", "src/compress_integer.c:fingera_encode_varint", "src/compress_integer.c:fingera_decode_varint", "src/btc/bech32.c:fingera_bech32_encode", "src/btc/bech32.c:fingera_bech32_decode", "src/btc/address.c:fingera_btc_address_decode"]}
{"id": "C103", "title": "Signed integers have one encoding, the shorter the nearer to zero", "statement": "fingera_encode_zigzag never needs more bytes for a value than for one further from zero, and what fingera_decode_zigzag accepts is what fingera_encode_zigzag writes for the number read. (The second half is violated: zero is also read from the byte 1, a negative zero, and ten-byte inputs that stand for 2^64 or more are read as well; these are the only exceptions. INT64_MIN, which cannot be written, is never read.)", "quantifier": "all 64-bit values, byte strings, announced sizes and buffers with room for the result", "why_tests_cant": "2^64 values and 2^70 byte strings, pairs of values", "anchors": ["src/compress_integer.c:fingera_encode_zigzag", "src/compress_integer.c:fingera_decode_zigzag"]}
{"id": "C104", "title": "Merkle trees are computed in place", "statement": "fingera_btc_hash256_d64 may be given an output in the same object as its input, as long as it begins at most 32 bytes behind the input (or behind its end): it writes the digests of the blocks as they were and changes nothing else. So halving n hashes of 32 bytes in place until one is left, the last doubled where their number is odd, leaves the Merkle root of the n hashes.", "quantifier": "all objects, offsets, numbers of blocks and hashes, both byte orders", "why_tests_cant": "unboundedly many sizes and relative positions; trees of every shape", "anchors": ["src/btc/hash.c:fingera_btc_hash256_d64", "src/hash/sha2.c:_hash256_d64_transform"]}
{"id": "C105", "title": "Bech32 in place", "statement": "fingera_bech32_decode may write the values over the text they come from (the output begins at most two bytes behind the text): it returns and writes what it would with a copy of the text elsewhere. fingera_bech32_encode may write the text over the values if the text begins at least the human-readable part and one byte before them, or behind their end. At other positions they may read what they have already written.", "quantifier": "all objects, texts, prefixes, values, offsets and buffer contents", "why_tests_cant": "unboundedly many texts and relative positions", "anchors": ["src/btc/bech32.c:fingera_bech32_encode", "src/btc/bech32.c:fingera_bech32_decode"]}
{"id": "C106", "title": "Keys and signatures encoded and decoded in place", "statement": "fingera_btc_key_encode, fingera_btc_key_decode and fingera_btc_signature_decode may be given an argument and a result that lie in one object: the result is that for the argument as it was before the call. (Violated: a result that covers the first byte of an encoding destroys it before it is read - every key and signature is refused; a key encoded over itself is undefined behaviour or, with its last bytes where the header goes, silently encoded as another key.)", "quantifier": "all objects, keys, encodings, lengths and relative positions, both key formats, both builds", "why_tests_cant": "unboundedly many contents and relative positions", "anchors": ["src/btc/key.c:ec_privkey_import_der", "src/btc/key.c:ec_privkey_export_der", "src/btc/key.c:ecdsa_signature_parse_der_lax", "src/btc/key.c:fingera_btc_key_encode", "src/btc/key.c:fingera_btc_key_decode", "src/btc/key.c:fingera_btc_signature_decode"]}
{"id": "C107", "title": "A hex dump reaches stdout whole", "statement": "fingera_hex_dump hands its text to stdout so that dumps printed by several threads at the same time come out one after the other, and so that a stream that cannot take everything (full disk, closed pipe) gets a beginning of the dump. (Holds for buffers of up to 406 bytes: one call of fwrite, whole dumps in every schedule of any number of threads. Violated for every longer buffer: the text goes out in pieces of 1001 to 1006 characters, so two dumps can come out mixed, and a piece that is lost leaves a hole in the middle because no result of fwrite is looked at; only the error indicator of stdout tells that something is missing.)", "quantifier": "all buffers of any length, both letter cases, all streams (any number of characters taken in any call), any number of threads and dumps and all schedules", "why_tests_cant": "unboundedly many buffers, failure patterns and schedules", "anchors": ["src/hex.c:fingera_hex_dump"]}
{"id": "C108", "title": "The Bech32 and address decoders form no pointer outside the text", "statement": "Under the strict rule of C (a pointer may not leave its object by more than one past the end, even if it is only compared) fingera_bech32_decode and fingera_btc_address_decode are defined on every text. (Holds for every text they accept, for every text with at least five characters after its last '1' or at least five bytes behind its terminator, and for every text that is refused earlier. Violated by refused texts: a text of one letter case whose last '1', not its first character, is among its last five characters, in an array that ends with the text, such as \"bc1\" in char[4]: pos + 7 is formed before the length is looked at.)", "quantifier": "all texts of any length, all objects they lie in, all output buffers, both networks, all hosts", "why_tests_cant": "unboundedly many texts and objects; compilers usually give the intended result, so that running the code shows nothing", "anchors": ["src/btc/bech32.c:fingera_bech32_decode", "src/btc/address.c:fingera_btc_address_decode"]}
{"id": "C109", "title": "Letter case does not matter in hex, Base32 and Bech32 texts and witness addresses", "statement": "fingera_from_hex and fingera_from_base32 read two texts that differ only in the case of letters alike, in any mixture; fingera_bech32_decode reads two such texts alike if neither mixes the cases (same verdict, same lower-case prefix, same values); fingera_btc_address_decode reads the upper-case form of a witness address, as it is used in QR codes, as the same address: kind, size and bytes. (Addresses: proved for upper-case texts of every length but 35 and 50 on mainnet and 33 on regtest, where the upper-case text might also be the Base58Check text of a key or script address, which is tried first.)", "quantifier": "all texts of any length and contents, all output buffers, all networks, hosts and both kinds of char", "why_tests_cant": "unboundedly many texts and, for each, exponentially many mixtures of cases", "anchors": ["src/hex.c:fingera_from_hex", "src/base32.c:fingera_from_base32", "src/btc/bech32.c:fingera_bech32_decode", "src/btc/address.c:fingera_btc_address_decode"]}
{"id": "C110", "title": "Chain parameters of the user's own", "statement": "The functions for texts of keys, extended keys and addresses take the chain's prefixes and human-readable part as parameters; a user who fills in a chain_parameters of his own can rely on them as on the three that come with the library: what is written is the Base58Check text of prefix and contents (or the BIP 173 text), it fits the announced sizes, it is read back as the same key or address under the same parameters, and nothing is accepted that is not such a text. (Violated: with secret-key prefixes of 5 to 8 bytes, 4 to 8 for compressed keys, and extended-key prefixes of 5 to 8 bytes, all of which the assertions admit, reading one's own text overruns a local array; without a prefix uncompressed keys and all extended keys are refused; if the script prefix starts with the key-hash prefix every script address is read as a key-hash address; with a human-readable part of more than 16 characters every witness address is refused.)", "quantifier": "all parameter blocks whose sizes do not exceed the objects, all keys, hashes, programs and texts, all hosts, both kinds of char, with and without NDEBUG", "why_tests_cant": "unboundedly many parameter blocks, keys and texts; the tests know the three built-in ones only", "anchors": ["include/fingera_libc/btc/chain_parameters.h", "src/btc/key.c:fingera_btc_key_to_string", "src/btc/key.c:fingera_btc_key_from_string", "src/btc/exkey.c:fingera_exkey_from_string", "src/btc/exkey.c:fingera_expubkey_from_string", "src/btc/address.c:fingera_btc_address_decode"]}
{"id": "C111", "title": "A signature belongs to one hash and one key", "statement": "Given a signature, fingera_btc_key_verify accepts it under a given public key for few hashes only, for a given hash under few public keys only, and the second half of an accepted signature cannot be changed except to n - s. Proved: at most two of each for all r with r + n >= p (all but one r in 2^127), four otherwise, and in the usual case exactly which. (Violated, by ECDSA itself: it is not one. Hashes of the same residue modulo n have the same signatures; whoever knows the key can name a second hash for which the signature is accepted too; anybody can compute a second public key under which it is accepted.)", "quantifier": "all public keys, all 32-byte hashes, all signature objects", "why_tests_cant": "2^256 hashes and keys; that no other is accepted is a statement about all of them and rests on the group of the curve", "anchors": ["src/btc/key.c:fingera_btc_key_verify", "include/fingera_libc/btc/key.h"]}
{"id": "C112", "title": "A child's secret key does not give away its parent's", "statement": "Whoever is given the secret key of a derived child, and the extended public key of its parent (or of an ancestor), does not learn the secret key of the parent (ancestor). (Violated, as by BIP 32 itself, for every child that is not hardened: the number fingera_btc_key_derive adds is an HMAC of public data, so it is subtracted again, level by level, up to the extended public key that is known. For hardened children the number depends on the parent's secret key, and the claim is a conjecture about HMAC-SHA512, outside of a model.)", "quantifier": "all well-formed extended keys, all paths without hardened indices, all fingerprints, all output buffers", "why_tests_cant": "a test derives some keys; that the ancestor's key is recovered for all keys and paths of any length is a statement about all of them", "anchors": ["src/btc/key.c:fingera_btc_key_derive", "src/btc/exkey.c:fingera_btc_exkey_derive", "src/btc/exkey.c:fingera_btc_exkey_get_pub"]}
{"id": "C113", "title": "Digests bind what was digested", "statement": "Two calls of fingera_btc_hash256, fingera_btc_hash160, the HMACs, or fingera_btc_bip32_hash with the same digest had the same input, and two Merkle trees made with fingera_btc_hash256_d64 of the same root have the same leaves, unless the inputs at hand (named in the theorem) are a collision of SHA-256, SHA-512 or RIPEMD-160: the compositions, paddings and layouts add no ambiguity of their own. (Violated: HMAC keys that differ by zero bytes at their end, or a key longer than a block and its digest, are the same key, as in RFC 2104; Merkle roots bind the hashes at the bottom of trees of the same height, and the leaves if none is repeated; but repeating the last of an odd number of leaves does not change the root, as in Bitcoin, CVE-2012-2459, and a node is not told from a leaf of a lower tree.)", "quantifier": "all messages, keys, chain codes, child numbers and lists of leaves of any length", "why_tests_cant": "a test compares some digests; that no two inputs share one except by a collision is a statement about all pairs", "anchors": ["src/btc/hash.c:fingera_btc_hash256", "src/btc/hash.c:fingera_btc_hash160", "src/btc/hash.c:fingera_btc_bip32_hash", "src/btc/hash.c:fingera_btc_hash256_d64", "src/hash/sha2.c:fingera_hmac_sha256", "src/hash/sha2.c:fingera_hmac_sha512"]}
{"id": "C114", "title": "Two signatures do not give the key away by sharing their first half", "statement": "fingera_btc_key_sign gives different hashes (or keys) signatures with different first halves r. Proved: the numbers from which r is made are opposite modulo n, or stem from different attempts, or SHA-256 collides at texts that it was given for the two signatures (named in the theorem). Why it matters (the violating case, for any two accepted signatures of whatever origin): from two signatures of the same r for hashes of different residues the secret key is computed, it is one of two numbers. And counting shows that the exception cannot be removed: for every key, signing never finishes for some hash, or two hashes of different residues get the same r.", "quantifier": "all valid keys, all 32-byte hashes, all signatures with r + n >= p (all but one r in 2^127)", "why_tests_cant": "no test can find two hashes with the same nonce; what follows if they exist is a statement about the group of the curve", "anchors": ["src/btc/key.c:fingera_btc_key_sign", "src/btc/key.c:fingera_btc_key_verify"]}
{"id": "C115", "title": "A digest does not help to digest longer texts", "statement": "Who knows only the digest of a text, not the text, cannot say what fingera_sha2_256, fingera_sha2_512, fingera_sha1 or fingera_ripemd160 give for a longer text that begins with it. Violated by all four (it is a property of the published functions): from the digest and the length of a text alone the digest of that text followed by its padding and any ending of one's choice is computed, so hash(secret || data) is no authentication; fingera_hmac_sha256 / _sha512 exist for that.", "quantifier": "all texts, all endings (together below 2^61 bytes), both byte orders", "why_tests_cant": "the claim is about all texts and all endings; a test compares two digests", "anchors": ["src/hash/sha2.c:fingera_sha2_256", "src/hash/sha2.c:fingera_sha2_512", "src/hash/sha1.c:fingera_sha1", "src/hash/ripemd160.c:fingera_ripemd160"]}
{"id": "C116", "title": "Texts sort as what they stand for", "statement": "Sorting texts (with strcmp or memcmp) sorts what they stand for (bytes as memcmp compares them, numbers by size). Holds for hexadecimal texts of the same letter case, of any lengths; for Base58 and Base58Check texts (addresses, secret keys) of the same length for data of the same length and, for the latter, the same prefix, whatever the checksums; for varints of the same length. Violated by Base58 texts and varints of different lengths, and by Base64, URL-safe Base64, Base32, Bech32 and witness addresses.", "quantifier": "all pairs of values (of the same length where it is said)", "why_tests_cant": "a relation between two calls, for all pairs of arguments", "anchors": ["src/hex.c:fingera_to_hex", "src/base58.c:fingera_to_base58", "src/btc/base58_check.c:fingera_to_base58_check", "src/compress_integer.c:fingera_encode_varint", "src/base64.c:fingera_to_base64", "src/base32.c:fingera_to_base32", "src/btc/bech32.c:fingera_bech32_encode"]}
{"id": "C117", "title": "An address belongs to one key", "statement": "Two secret keys (each with a choice of compressed or uncompressed public key) with the same key id, or whose addresses (pay-to-pubkey-hash or witness keyhash, on any network) have the same text, are the same key with the same choice, and the addresses are of the same kind for networks that use the same prefixes. Proved up to collisions: otherwise the two public keys show a collision of SHA-256 or of RIPEMD-160. Unconditionally it is false: some key id belongs to at least 2^95 secret keys, some fingerprint to at least 2^223.", "quantifier": "all pairs of valid secret keys, both forms, both kinds, all networks, byte orders and builds", "why_tests_cant": "a relation between two chains of calls, for all pairs of secret keys; a counterexample is a collision nobody can exhibit", "anchors": ["src/btc/key.c:fingera_btc_key_keyid", "src/btc/key.c:fingera_btc_key_fingerprint", "src/btc/key.c:fingera_btc_pubkey_keyid", "src/btc/address.c:fingera_to_address_pubkey", "src/btc/address.c:fingera_to_address_witness_v0_keyhash"]}
{"id": "C118", "title": "The children of an extended key are different", "statement": "Children of one extended key with different indices (hardened or not) are different keys. Proved: fingera_exkey_derive gives two children the same secret key exactly if the left halves of two HMACs are the same, likewise fingera_expubkey_derive for public keys; children with the same key and the same chain code have the same index, or the two derivations show a collision of SHA-512; a child has the key of its parent exactly if the left half of its HMAC is zero.", "quantifier": "all valid extended keys, all pairs of indices, fingerprints and buffers, both builds and byte orders", "why_tests_cant": "a relation between two calls for all 2^64 pairs of indices and all keys", "anchors": ["src/btc/exkey.c:fingera_exkey_derive", "src/btc/exkey.c:fingera_expubkey_derive", "src/btc/key.c:fingera_btc_key_derive", "src/btc/key.c:fingera_btc_pubkey_derive"]}
