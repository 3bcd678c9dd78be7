{
 "C11": "Violated by the code (strchr over raw data): exact condition (round trip independent of the following memory iff a group is zero), over-read and over-write for all other data, and the part that holds.",
 "C12": "Violated by the code (unvalidated last group, signed char index): exact condition of undefined behaviour, counterexamples, full description of every defined run.",
 "C17": "Violated by the code (four or more leading '1'): counterexample and the part that holds.",
 "C23": "Violated by the code (10-byte overflow): counterexample and the part that holds.",
 "C24": "Violated by the code at INT64_MIN: counterexample; every other value proved.",
 "C39": "Violated by the code (uninitialised stack bytes; a Bech32 text that is also Base58Check): counterexamples and the part that holds.",
 "C40": "Violated by the code (uninitialised stack bytes): counterexample and the part that holds.",
 "C42": "Violated by the code for witness versions 1..16 (a testnet text that is also Base58Check of mainnet): counterexample; every other case proved.",
 "C43": "Violated by the code (leading '1', negative characters where char is signed, strings too long for int): exact condition for defined behaviour, counterexamples.",
 "C44": "Violated by the code (padding, surplus group): counterexamples; proved for all strings obeying BIP 173's padding rule, with no bound on characters or lengths.",
 "C46": "Soundness proved for all strings. Safety violated by the code (overrun of the local array; negative characters where char is signed; strings too long for int): exact condition of undefined behaviour, and full specification otherwise.",
 "C54": "Round trip and soundness of every defined run proved for all strings; safety violated by the code (overrun of the local array; negative characters; too long): exact condition, and full specification otherwise.",
 "C58": "Violated by the code (short reads): counterexample; full reads proved; errors always fatal proved.",
 "C62": "Violated by the code at depth 255: counterexample; every other depth proved.",
 "C63": "Violated by the code (no validity checks): counterexamples; which texts are accepted is C54.",
 "C71": "Violated by the code (the padded HMAC key, the payload in fingera_btc_key_from_string, the payload in fingera_exkey_from_string on refusal): counterexamples for all inputs; every other temporary proved wiped on every path.",
 "C74": "Violated by the code for requests of 2^32 bytes and more (the size is cut to 32 bits): counterexample; every smaller request proved.",
 "C76": "Violated by fingera_btc_key_from_string for the text of any extended key (82 bytes into its array of 40); every other pair of kinds proved.",
 "C13": "Exact: canonical text up to 1,556,147,570 significant bytes, undefined (size_t to int) for every larger input.",
 "C14": "Violated by the code only for more than 1,556,147,570 significant bytes (int overflow of the work size, proved for every such input); holds for all smaller inputs.",
 "C15": "Violated by the code for texts of more than 2,929,718 digits: (int)(str_end-str)*733 overflows in the decoder (proved for every such buffer, and every buffer with 2,200,000 significant bytes is one); the round trip holds for all others.",
 "C16": "Exact on every NUL-terminated string: the result is the specified one, or undefined exactly for TooLong texts, texts scanned up to a negative char (signed char), and too small buffers.",
 "C18": "Same limit as C15: violated for every payload with 2,200,000 significant bytes; the round trip holds whenever the text is not TooLong (in particular up to 1 MB).",
 "C19": "Exact on every NUL-terminated string; soundness has no hypothesis on length, charset or buffer.",
 "C79": "Public keys proved. For private keys the code copies the key onto itself with memcpy, undefined by the letter of C (violated); proved where such a memcpy changes nothing.",
 "C81": "Violated: DECLARE_BUFFER does not check malloc. Proved: the exact sizes from which memory is requested, undefined behaviour when it is refused, unchanged results when it is served.",
 "C82": "Proved for hex, Base64, Base32, Bech32. Violated for Base58 on 32-bit machines; exact condition proved.",
 "C83": "Proved for all overlaps.",
 "C84": "Proved for all conversions but address decoding, where it is violated; the cases in which it holds are proved.",
 "C85": "Violated on machines with alignment requirements; proved: the exact set of placements for which each hash function, HMAC, composition and Base58Check conversion is defined, and the digest there. Strict aliasing is not modelled.",
 "C86": "Violated on Windows in two cases, both proved; Unix completely proved; writing to stderr is assumed to succeed.",
 "C87": "Proved for every pair of values, across kinds and networks.",
 "C88": "Proved for every pair of pieces; examples show that other places to cut do not work.",
 "C89": "Proved for every key, path and pair of machines.",
 "C90": "Proved for every error pattern of up to four characters or within six consecutive ones. That such a text is not taken for a Base58 address is not claimed: the decoder tries Base58 first and only a 32-bit checksum stands in the way (C39, C42).",
 "C91": "Proved without exception for hex, WIF, extended public keys and Base58 addresses. Violated for Base64, URL-safe Base64, Base32 and extended private keys; for these the exact condition under which the text comes back is proved.",
 "C92": "Proved for every function named. Branches and array offsets only: no speculation, no timing of instructions; calls into libsecp256k1 are seen as calls.",
 "C93": "Violated: the whole secret follows from the offsets of the table look-ups, for hex, Base58, WIF and extended private keys. What holds: apart from the accesses to the table, hexadecimal output shows the length only.",
 "C94": "Proved for every writer named, as an equation with both cases. Base58 for at most 1,556,147,570 significant bytes (see C14), hashes below 2^61 bytes.",
 "C95": "Proved for every reader named, as an equation with both cases; Bech32 in C96_bech32_verdict.",
 "C96": "Proved. The header says that too little room for the human-readable part is answered with 0; the code answers -3 (0 would be taken for a text without data).",
 "C97": "Violated by the code for Base32, base58 and Bech32; the exact behaviour on all memory is proved, and that the property holds where the text is followed by a NUL at once (or by blanks, or by text without '=' or '1'), and always for hex and Base64.",
 "C98": "That the builds agree wherever no assertion fails is proved for all functions; where one fails the exact behaviour of the release build is proved, and there it is wrong for base58 with a wrong announced length, Bech32 values above 31, signing with an invalid key and hardened children of public keys.",
 "C99": "Which single insertions and deletions among the last six characters go unnoticed is characterised exactly: q's before a final p. There the claim fails of the code (as of Bech32 itself) for witness versions 1 to 16; for version 0 it holds.",
 "C100": "Accepted texts have the same value in every lawful locale (proved exactly for base58 and its users and for addresses); two dependences on the locale are real and proved: extra spaces around base58 texts, and upper-case I in Bech32 prefixes in Turkish locales.",
 "C101": "Proved as a violation: the secret is a function of what is observed while its text is read. What holds for hexadecimal apart from the look-ups: C101_hex_partial.",
 "C102": "Upper bounds for all inputs, and for base58 lower bounds of the same order.",
 "C103": "Monotonicity proved; uniqueness violated, with the exact set of exceptions.",
 "C104": "Proved for all admissible positions; an example shows the condition is needed.",
 "C105": "Proved for the stated positions; a theorem shows that other positions fail.",
 "C106": "Violated by the code where the result covers the first byte of the encoding or its header (decoders), where it begins among the key's bytes, and where the key overlaps the header or the place of the key in the encoding (encoder). The exact behaviour of all three functions is proved for every position and every content; where the property holds is proved too.",
 "C107": "Proved for buffers of at most 406 bytes; for longer ones violated by the code (pieces can be mixed with those of another thread, a lost piece leaves a hole), with the exact pieces proved for every buffer and every stream.",
 "C108": "Proved for every accepted text and every text with five characters after the last '1' or five spare bytes; violated by an exactly described set of refused texts.",
 "C109": "Proved for hex, Base32, Bech32; for addresses proved up to a Base58Check collision that is excluded for upper-case texts of all but three lengths.",
 "C110": "Exact results for every prefix size; round trips proved for prefixes of 1 to 3 (secret keys) and 1 to 4 bytes (extended keys), for prefixes of addresses neither of which starts with the other, and for human-readable parts of at most 16 visible characters without capitals; the other cases are refuted.",
 "C111": "Uniqueness is refuted (three ways); proved instead: at most two (four for r < p - n) hashes modulo n, keys and second halves, and exactly which in the usual case.",
 "C112": "Refuted for children that are not hardened, at any depth. Nothing is claimed about hardened children (a conjecture about HMAC-SHA512).",
 "C113": "Proved up to collisions at named inputs; refuted for HMAC keys (trailing zeros; long key and its digest) and for Merkle lists of different lengths.",
 "C114": "That r never repeats cannot be proved of a deterministic function of 512 bits; proved: a repeat is an opposite number, another attempt, or a named collision of SHA-256, and a repeat (from anywhere) gives the key away.",
 "C115": "Violated as such (length extension, as published for all four functions): proved how the digest of the longer text is computed.",
 "C116": "Proved for hexadecimal, and for Base58, Base58Check and varints of equal lengths; violated by the others, for all data that begin so.",
 "C117": "Proved up to collisions that the two public keys show; without that exception violated, by counting.",
 "C118": "The equality of keys is characterised exactly; that it does not happen is proved up to collisions of SHA-512 that the two derivations show."
}