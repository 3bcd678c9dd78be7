# Formal model of fingera_libc in Lean 4 — design

## 1. Method

* `lean/Verif/Model/*`  – one definition per C function, in the order of the C text, every
  definition cites file and lines.  Loops are structural recursions over an iteration count,
  in-place updates return the new memory object.
* `lean/Verif/Spec/*`   – small, independent specifications (RFC 4648 bit regrouping, positional
  numbers for base58 and varint, FIPS 180-4, RFC 2104, RIPEMD-160, BIP 173, BIP 32, DER).  They
  do not import the model.
* `lean/Verif/Lemmas/*` – helper lemmas.
* `lean/Verif/Props/*`  – the property theorems (`C01_…`, `C02_…`), each with a non-vacuity `example`
  beside it.  Properties the code violates have a theorem `Cxx_violated…` with a concrete witness
  and `Cxx_…_partial` theorems for what does hold.
* `lean/Verif/Cases/*`  – every property theorem that has hypotheses (all 465 of them), applied to concrete, non-trivial arguments, so
  that all its hypotheses are met at once (`tools/cases_check.py` looks for gaps).
* `lean/Verif/Replay/*` – the project's test cases, evaluated on the model.

### Undefined behaviour is an outcome
`Res α = ok a | ub | abort`.  A memory object is the list of its bytes as seen from the
pointer the C function receives; every read and write goes through `rd`/`wr`, which return `ub`
when the index is outside the object.  `abort` is a failed `assert` (the model is of a build with
assertions on; that `abort` is unreachable is part of the theorems where the code relies on it)
or `FINGERA_FATAL`.  A theorem of the form `f … = ok …` therefore contains memory safety.
`int`/`size_t` values are `Nat` when the C code cannot overflow for the stated size range; where it
can (base58 decode size computation, varint, zigzag, hash length fields, BIP32 depth) fixed-width
values are used or overflow is an explicit `ub`.

## 2. Property by property

| id | modelled | how proved |
|----|----------|-----------|
| C01–C03 | `hex.c` complete, incl. the 1024-byte dump cache and its flush | loop invariants, table facts by `decide` over all 256 bytes |
| C04–C08 | `base64.c` + length functions of `base64.h` | refinement to bit-stream regrouping spec; group-wise induction |
| C09–C12 | `base32.c` + `base32.h` | same; C11/C12 are violated (strchr over-read, unvalidated tail, signed-char index): negation + partial |
| C13–C17 | `base58.c`, `base58.h`, C `isspace` in the "C" locale | invariant "digit array = value of consumed input"; size bound 138/100, 733/1000 by real arithmetic on naturals; C17 violated |
| C18–C19 | `base58_check.c` | corollaries of base58 + hash |
| C20–C24 | `compress_integer.c` on 64-bit words | bijective base-128 numeration; C23, C24 violated at the overflow points |
| C25–C30 | `sha2.c`, `sha1.c`, `ripemd160.c` (transform, padding, finalisation, HMAC) | register-rotation invariant against the FIPS loops; padding arithmetic |
| C31 | `sha256 transform_d64` with its constant-folded rounds | symbolic comparison with three generic compressions |
| C32 | `btc/hash.c` | corollaries |
| C33 | `endian.h` with the host byte order as a parameter | both host orders, all values |
| C34–C37 | `btc/bech32.c` | checksum linear over GF(2); step is invertible; burst detection for any length |
| C70 | same model | the register is a vector over GF(32); any four of the 89 columns are independent (kernel evaluation of a projection test over all columns, proved sound), so two accepted words differ in five places |
| C38–C44 | `btc/address.c`, `chain_parameters.c` | composition; numeric range of the leading byte excludes base58/bech32 confusion; C43, C44 violated |
| C45–C46 | WIF part of `key.c` | composition; overflow witness for C46 |
| C47–C50 | DER import/export and the lax signature parser of `key.c` | byte-level parsing lemmas |
| C51–C52, C60–C62 | `key_derive`, `pubkey_derive`, `exkey_init/derive`, ids | libsecp256k1 is modelled concretely, on an executable curve whose group law is proved against Mathlib's `WeierstrassCurve.Affine.Point` (prime order n included); C62 violated at depth 255 |
| C53–C54, C63 | `exkey.c` | layout lemmas, composition; C54 violated by an overrun, C63 by unchecked keys |
| C73 | address, WIF and extended key encoders | the leading base-58 digits of a number in an interval; kernel arithmetic for the boundaries |
| C71, C72 | the functions once more with a log of `malloc`, `free` and the end of local arrays with their contents (`Model/Temporaries`) | a combinator calculus (`Runs`): the logged run returns what the model returns, its events are of wiped temporaries, blocks are freed once; violations by inversion of the run |
| C55, C65–C69 | signing loop, verification, encodings of signatures and public keys | invariants of the two loops (nonces, grinding) for any number of rounds; ECDSA correctness in the group |
| C56–C57, C64 | key generation, context init/uninit | state machines over arbitrary random streams / call histories |
| C58 | `random.c` (Unix branch) with the OS as an arbitrary list of read results | violated for short reads; partial for full reads |
| C59 | `cleanse.c`, both variants | memory update lemma |
| C74 | `random.c` (both Windows branches) with the provider and generator arbitrary | violated from 2^32 bytes on; partial below |
| C75 | `random.c`, all branches, with a log of the calls to the system | induction over the replies; handle bookkeeping |
| C76 | the decoders on the texts of the encoders | C73 (beginnings), C46, C54 and the address decoder's specification; violated for secret keys |
| C77 | `init`, `uninit` and the library calls of every function as interleaved accesses to the static pointers and contexts (`Model/Threads`) | every schedule: pointers and contexts are only read, so the shared state is invariant; explicit schedules for the overlaps that must not happen |
| C78 | the decoders with text and output in one object (`Model/InPlace`) | simulation: every read is at or behind every earlier write, so the object agrees with the text copy where it is still read |
| C79 | `derive` with the child in the parent's place (`Model/InPlaceKeys`) | the order of reads and writes; then C52; violated by the letter of C for private keys |
| C80–C81 | all callers of `DECLARE_BUFFER` once more, with an arbitrary allocator (`Model/OutOfMemory`) | a relation "does the same, with this many requests" that composes; exact equations for `base58.c`; C81 violated |
| C82 | the length functions in `w`-bit arithmetic (`Model/SizeT`) | remainders vanish below the bounds; exact condition for Base58; violated on 32-bit machines |
| C83–C84 | the functions with inputs and outputs at arbitrary offsets of one object (`Model/Overlap`) | stores behind an offset commute with dropping the prefix; reads precede writes; then C13–C46; C84 violated for addresses |
| C85 | the hash functions, HMAC, the compositions and Base58Check with the addresses of outputs and local byte arrays and a check at every conversion to a word pointer (`Model/Alignment`); effective types (strict aliasing) are not modelled | the functions without addresses succeed; inverting their steps gives the run with addresses up to the first failing check |
| C86 | `fingera_fatal` with a model of `fprintf` for the conversions that occur (`%s`, `%d`, `%ld`, `%lu`, `%08lx`, with the argument types checked), errno, `strerror`, `GetLastError`, `FormatMessageA` as arbitrary values and functions; the three implementations of `fingera_os_rand_bytes` once more with reports (`Model/Error`); what a numeral is: `Spec/Report` | induction on the successful reads; digits of `Nat.toDigits` denote the number by strong induction |
| C87 | nothing new; `Item` lists the eight kinds of text of Bitcoin with the call that writes each | decoders (or their specifications) are left inverses; kinds of Base58Check text differ in length or version bytes, witness addresses in their first characters (C73); the last `1` of a Bech32 text separates its parts |
| C88 | nothing new | the specifications of the texts distribute over `++` at the boundaries of groups (C01, C02, C04, C05, C08, C09) |
| C89 | the programs of owner and watcher (`publish`, `ownerKey`, `watchKey`, `ownerAddress`, …), sequences of calls of the modelled functions | composition of C38, C41, C51, C52, C54, C60, C65 and C67 |
| C90 | nothing new | only valid Bech32 texts with the network's prefix reach the witness kinds; C36, C70 and their distance lemma |
| C91 | nothing new (Spec/Rewritten: which last characters are canonical) | digits of the bytes of digits (Lemmas/Rewritten): the last digit loses its spare bits; existing decoder and encoder theorems |
| C92 | Model/Leakage, Model/LeakageKey: the hash functions, HMAC, derivation and serialisation once more, with the directions of branches and the offsets of array accesses recorded; libsecp256k1 opaque | each watched function computes the result of the function modelled before and records a list that is a function of the lengths (Lemmas/Leakage, LeakageKey: `Shows`), by induction over blocks, rounds and words |
| C93 | Model/LeakageKey: the writers of texts once more, with branches and array offsets recorded | hexadecimal: the record is a list over the bytes; Base58: the accesses to the alphabet are the digits (Lemmas/LeakageText), the rest of Base58Check records lengths only; with C87 the key follows; Base64 and Base32: the functions of Model/LeakageCodec, two runs compared step by step (`Alike`: same apart from the table, `Tells`: same observations give the same text; Lemmas/LeakageCodecAlike, LeakageCodecTells) |
| C94 | the models of the writers; an output object is a list of any length and a write outside it is undefined behaviour | a run that is defined in an object is defined in every longer one and leaves the extra bytes alone (Lemmas/Need: `Frame`, by a simulation over every loop); so a run defined in an object shorter than the result would, in the longer one, leave bytes of the result unwritten whatever they were before, a contradiction with C01, C04, C13, … |
| C95 | the models of the decoders; an output object is a list of any length and a write outside it is undefined behaviour | the loops of the decoders for objects of every size, by induction over the groups (Lemmas/NeedDecode, Base32Total, Base58Total) |
| C96 | Model/Bech32: `decode` | total description of the decoder by cases on the text (Lemmas/NeedDecode: `decodeAt_total`); the list of leading legal values is specified by `Leading` and shown unique |
| C97 | the models of the decoders; the text is a list that goes on behind the announced characters, reading past its end is undefined behaviour | base58 with a work area of any size, by induction over the digits (Lemmas/Announced: `digitLoop_any`, `fromBase58_any`); memory without NUL (`fromBase58_no_nul`); the exact descriptions of the other decoders (C95, C96) |
| C98 | `Model/Release`: base58.c, base58_check.c, bech32.c, address.c and the string functions of key.c and exkey.c with the switch `nd` (the functions of key.c that only assert have it in `Model/Key`) | a relation `Only` between the runs of the two builds (equal unless the debug build aborts), preserved by every construct (Lemmas/Release); exact results where they differ: the number modulo 256^size by induction over the digits (Lemmas/ReleaseBase58), the encoder with values of any size (Lemmas/ReleaseBech32) |
| C99 | `Bech32.decode`, `Address.addressDecode` | the checksum of a text with a character inserted near the end differs from the old one by a polynomial of degree below 6 times x, which vanishes only for q's before a final p (Lemmas/Bech32Insert, linear algebra over GF(2) with the generator's constants); the effect on addresses from C35/C41 and the number of value bits |
| C100 | `Model/Locale`: the readers that call `isspace`, `isupper`, `tolower`, and their callers, with the three functions of an arbitrary locale; what the C standard promises of them: `Spec/Locale` | a simulation: the run in a locale is the run in the C locale on the text with the locale's spaces as blanks (induction over each scanning loop, Lemmas/Locale); accepted texts consist of digits and spaces (C16); for Bech32 the total description of the decoder with any lowering function and the distance of the code (C70) |
| C101 | `Model/LeakageRead`: the readers of texts once more, with branches and array offsets recorded; `isspace` and `memcmp` opaque | a relation between two runs that look the same (`Tells`, Lemmas/LeakageRead): each step's observations determine the data it leaves behind, composed along the code; that runs with the specified results exist: C102; Base64 and Base32 likewise, with Model/LeakageCodec |
| C102 | the watched functions of `Model/Leakage*` (`LeakageCodec`: Base64, Base32, integers, Bech32, addresses); `Spec/Work` adds up what is observed | upper bounds: the recorded lists of C92 are added up, and for texts each loop is bounded by induction (`Costs`, Lemmas/LeakageWork, LeakageTextWork, LeakageCodec); lower bounds: the carry loop runs over all places in use, and the number held there has at least as many places as digits were read (Lemmas/LeakageWorkLower) |
| C103 | as C24 | the exact unsigned number written (`VarintSpec.zigzag`) and read (`unzigzag`) for every value (C24_encode_zigzag_exact, C24_decode_zigzag_any); all boundaries between lengths are even, so the sign never costs a byte |
| C104 | `hash256_d64` on one object at offsets `a` and `b` (every read sees what was written before); a caller that halves a list of hashes in place (not part of the library) | invariant of the loop: `i` digests of the original blocks are written and the blocks to come are untouched (`b ≤ a+32`); a tree defined from the top down (`MerkleSpec.root`) equals the levels from the bottom up by induction on the height |
| C105 | `fingera_bech32_encode/decode` with argument and result in one object at offsets `a` and `b`, the human-readable part elsewhere | simulation: the loop on the object and the loop on separate buffers go in step as long as the places still to be read are as they were |
| C106 | key and signature encodings with argument and result in one object at offsets `a` and `b` (`Model/InPlaceDer`); overlapping `memcpy` is undefined; the 64-byte layout of signatures is an arbitrary function | violated for results over the encoding, for all inputs; exact behaviour of the encoder and of the two decoders at every position (`Props/InPlaceDerAny`: the parser with its continuation left open, which sees the encoding as it is after the result was cleared); separate places equal C47 to C49 |
| C107 | `fingera_hex_dump` with its calls of `fwrite` and a stream that takes any number of characters in each call (`Model/HexStream`); a call of `fwrite` is atomic among threads (as stdio locks the stream) | the pieces are characterised exactly for every buffer and every stream (whole bytes, just over 1000 characters); one call iff at most 406 bytes; all interleavings of any threads by rewriting the call sequences of the threads; violations for every longer buffer |
| C108 | the two decoders with a check of every pointer they form without dereferencing it (`Model/Pointers`) | case analysis over the position of the last '1': undefined exactly on the texts of an explicit specification, equal to the ordinary model on all others; lifted to the address decoder by rewriting |
| C109 | the existing models of the readers | every table gives the same for both cases (all 256 entries), every search is for a character without case; the address decoder by a simulation that shows its result independent of what the Base58 attempt left in the output, and by the range of base-58 numbers with the leading digits of BC1, TB1, BCRT1 |
| C110 | the existing models of key.c, exkey.c, address.c, which take the parameters as an argument | for each kind of text: what is written, what the reader makes of one's own text (an exact case distinction on the size of the prefix), exact behaviour and soundness for all texts; round trips where the case distinction allows them, violations where not |
| C111 | the existing models of key.c (`keyVerify`, `keyGetPub`) and libsecp256k1 | accepted means `s·R = z·G + r·Q` for a point whose abscissa is `r` modulo `n`; there are at most four such points, and each of `z`, `Q`, `s` is determined by the point because the group has prime order `n` (proved, `Lemmas/CurveOrder`) |
| C112 | the existing models of key.c and exkey.c; `Bip32Spec.climb` is the computation of somebody who has the extended public key of the ancestor | induction on the path with C52 (what derivation computes) and the commuting square of C51, which says that the public keys on the way are those `climb` uses |
| C113 | the existing models of hash.c and sha2.c and the tree loop of C104; `Collide H x y` names both texts (that some collision exists is true by counting and says nothing) | C29, C30, C32 and C104 say what is digested; equal digests are peeled off level by level, for trees by induction on the height |
| C114 | the existing models of key.c (`keySign`, `keyVerify`) with C69 (RFC 6979 numbers) and C111 (what accepted means); `keysFrom` is the computation of somebody who sees the two signatures | the HMACs of the generator are peeled off with C113 by induction on the number of rejected candidates; the key is solved for in the field of integers modulo `n`; that repeats exist (or signing does not finish) by counting |
| C115 | the existing models of sha2.c, sha1.c, ripemd160.c; `extension` (Spec/Extension) is the computation of somebody who has only digest and length | C25-C28; the padded text is whole blocks, so the computation for the longer text passes through the digest of the shorter |
| C116 | the existing models of the writers; `before` (Spec/Order) is the order of `memcmp` and `strcmp` | C01, C13, C21 and the digits of equal-length numerals compare as the numbers; where it fails, the first differing character is compared |
| C117 | the existing models of key ids, fingerprints and address writers; `pubText`, `Shows` (Spec/OneKey) name what is hashed and where a collision is | C60 and C87, the map from keys to points is one-to-one (order of the base point), collisions peeled off one hash after the other; the violation by counting (pigeonhole), for all 2^255 keys at once |
| C118 | the existing models of the derivations; `privText`, `pubText`, `Shows` (Spec/Siblings) name what is given to HMAC-SHA512 | C52 turns the calls into CKDpriv and CKDpub of BIP 32; addition of the parent's key is undone modulo `n` or in the group of the curve; the HMAC is peeled off with C113 |

No property is classified "not applicable".

## 3. Trusted base
* Lean 4.33.0 kernel; axioms at most `propext`, `Classical.choice`, `Quot.sound` (`#print axioms` of every property
  theorem shows a subset of these).  `decide +kernel` is evaluation by the kernel, not by compiled code.
* Mathlib: its definitions and theorems are checked by the same kernel.  Only `Lemmas/Secp256k1*`, `Lemmas/CurveOrder`,
  `Lemmas/Ecdsa` depend on its theory of elliptic curves; no theorem statement about the library does (the curve in
  `Spec/Secp256k1` is plain arithmetic on naturals; `Props/Secp256k1` relates the two).
* The reading of the C text into `Model/*` (the code is not run here).  As a check on that reading the project's own test
  cases are replayed on the model (`tools/replay_gen.py`): all 687 deterministic ones hold when evaluated with `--all` (they include
  every hash, Base58, Base64, hex, bech32, address and WIF vector and the three BIP 32 chains; left out are the inputs of a million
  characters and the tests on random data), and a selection is evaluated by the kernel in `Verif/Replay`.  These are tests, not proofs.  Tables were copied mechanically (`tools/tables.py`),
  the unrolled hash rounds were translated mechanically (`tools/sha1_gen.py`, `tools/sha2_gen.py`).
* External code, modelled by its documented behaviour: libsecp256k1 (`Model/Secp256k1`, on the concrete curve), the OS
  random device, `malloc`, libc `strchr`, `strrchr`, `memcpy`, `memmove`, `memset`, `memcmp`, `isspace` (C locale),
  `isupper`/`tolower`, `llabs`.

## 4. What is modelled and what is not

| file | modelled | not modelled |
|------|----------|--------------|
| `src/hex.c`, `hex.h` | everything; `stdout` of `fingera_hex_dump` is the list of bytes written to it (`Model/Hex`) or a stream that takes part of what each `fwrite` gets (`Model/HexStream`) | buffering inside `stdout` |
| `src/base64.c`, `base64.h` | everything | – |
| `src/base32.c`, `base32.h` | everything; signedness of `char` is a parameter | – |
| `src/base58.c`, `base58.h` | everything; built with assertions (`Model/Base58`) and without (`Model/Release`), in any locale (`Model/Locale`); wiping and freeing in `Model/Temporaries`; refused allocations in `Model/OutOfMemory`; `int` size computation with overflow | — |
| `src/btc/base58_check.c`, `.h` | everything, wiping and freeing in `Model/Temporaries` | as above |
| `src/compress_integer.c`, `.h` | everything | – |
| `src/hash/sha1.c`, `sha2.c`, `ripemd160.c` | everything, round by round; HMAC; host byte order is a parameter; wiping in `Model/Temporaries` | registers and scalars left behind |
| `endian.h` | everything, for both byte orders | compiler intrinsics chosen by `#if` |
| `src/btc/hash.c` | everything | – |
| `src/btc/bech32.c`, `.h` | everything; built with assertions (`Model/Bech32`) and without (`Model/Release`) | forming `pos + 7` past an object counts as undefined only in `Model/Pointers` (C108) |
| `src/btc/address.c`, `.h` | everything; the uninitialised stack buffer is an arbitrary parameter | – |
| `src/btc/chain_parameters.c` | the three networks, all fields | – |
| `src/btc/key.c` | everything; `NDEBUG` is a parameter | the exact layout of libsecp256k1's opaque 64-byte objects; registers and scalars left behind (arrays: `Model/Temporaries`) |
| `src/btc/exkey.c`, `.h` | everything, wiping in `Model/Temporaries` | |
| `src/random.c` | all three implementations | – |
| `src/cleanse.c` | `memset`, both variants; the compiler barrier is a no-op | – |
| `src/error.c` | everything, with what `fprintf` writes (`Model/Error`); elsewhere a fatal error is `abort` | errors of `stderr` itself |
| `tests/` | their cases are replayed on the model (`Verif/Replay`) | the gtest programs themselves |
| `benchmarks/` | – | all |

Observations (C92, C93, C101, C102): the directions of branches in the C text and the offsets of accesses to arrays. Not modelled: branches a compiler
adds or removes, speculative execution, instructions whose time depends on their operands, and what happens inside libsecp256k1 and libc.

Lengths: a C object has fewer than 2^63 bytes; where a theorem needs a bound on a length (`< 2^64`, `< 2^61` for the bit
count of SHA) the hypothesis is explicit in its statement.

## 5. Properties the code violates

Each has a kernel-checked counterexample (`…_violated…`) and theorems for the part that holds.

| id | what happens |
|----|--------------|
| C11, C39, C40 | `fingera_from_base32_raw` looks for `'='` with `strchr` in binary data: reads behind the buffer, or stops at a value that happens to be `'='`; decoding of segwit addresses depends on uninitialised stack bytes |
| C12 | the incomplete last group of base32 is not validated; a byte ≥ 0x80 indexes the table negatively where `char` is signed |
| C14 | more than 1,556,147,570 bytes behind the leading zeros: the work size `n*138/100+1` does not fit the `int` it is converted to |
| C15, C18 | a text of more than 2,929,718 digits (e.g. any buffer with 2,200,000 bytes behind its leading zeros) overflows `(int)(str_end - str) * 733` in the decoder |
| C17, C43 | ten leading `'1'` decode to one byte more than `fingera_from_base58_length` announces |
| C23 | varints of 10 bytes that denote 2^64 or more are accepted |
| C24 | `llabs(INT64_MIN)` overflows |
| C71 | `fingera_hmac_sha256/512` leave the padded key, `fingera_btc_key_from_string` leaves the secret key (always), `fingera_exkey_from_string` leaves the extended key when it refuses a text |
| C74 | on 64-bit Windows a request of 2^32 bytes or more is cut to 32 bits and the rest of the buffer keeps its old contents |
| C76 | the text of any extended key handed to `fingera_btc_key_from_string` overruns its 40-byte array |
| C79 | `fingera_btc_key_derive` copies the key onto itself with `memcpy` when the child replaces the parent, which C11 7.24.2.1 leaves undefined |
| C81 | the result of `malloc` is never checked: Base58 of more than 92 significant bytes, or of texts with more than 174 significant characters, writes through NULL when memory is exhausted |
| C82 | `fingera_to_base58_length` and `fingera_from_base58_length` wrap around from 2^w/138 and 2^w/733 on, i.e. from 31 MB and 5.9 MB where `size_t` has 32 bits |
| C84 | `fingera_btc_address_decode` with the output over the text: the Base58 attempt writes before `decode_bech32` reads the text again; about one witness address in ten is then rejected |
| C85 | `(uint32_t *)hash`, `(uint64_t *)hash`, `*(uint64_t *)&last_chunk[56]`: undefined for outputs or local `char` arrays that are not aligned (C11 6.3.2.3p7); callers inside the library pass `char` arrays (base58_check.c 13 and 34, hash.c 9 and 15, key.c, exkey.c) |
| C86 | on Windows `msg_buffer` is not initialised when `FormatMessageA` fails (error.c 35-41); `%lu` with an `unsigned int` (random.c 21 and 25, undefined by C11 7.21.6.1p9 although both have 32 bits there) |
| C91 | bits of the last character that belong to no byte are ignored by the Base64 and Base32 decoders (`Zg` and `Zh`, `my======` and `mz======` are the same byte), and so is a superfluous last character; extended private keys with a non-zero byte before the key are accepted (C63) |
| C93 | characters are looked up in tables at offsets that are the secret's digits: from the offsets seen while a private key is written as hex, WIF or xprv the whole key follows (`C93_violated_recover_hex`, `_base64`, `_base32`, `_wif`, `_exkey`) |
| C97 | Base32, base58 (Base58Check, WIF, xprv, xpub) and Bech32 look at memory behind the announced length; proved exactly what they do there: base58 decodes everything up to the NUL or fails an assertion, Base32 everything up to a '=', Bech32 refuses valid text if a '1' follows, and all of them read out of bounds if no NUL follows (`C97_violated_*`). Hex and Base64 keep to the announced length (`C97_hex_base64`) |
| C98 | with NDEBUG: base58 with too small an announced length drops leading bytes and accepts texts whose checksum is wrong (`C98_violated_base58`, `_base58check`, `_keys`); `fingera_bech32_encode` reads behind its alphabet (`C98_violated_bech32`); `fingera_btc_key_sign` reports success for an invalid key, with the signature (0,0) (`C98_violated_sign`); `fingera_btc_pubkey_derive` derives hardened children of public keys as if they were not hardened (`C98_violated_hardened`) |
| C99 | Bech32's own weakness, present here because there is no Bech32m: inserting or deleting q's before a final p keeps the checksum valid (`C99_violated_inserted`, `C99_violated_removed`); addresses of version 1 to 16 become other addresses (`C99_violated_address`), version 0 is not affected (`C99_version_0`) |
| C100 | `isspace` of the current locale decides what may surround a base58 text (`C100_violated_blank`); `tolower` of the current locale lowers the prefix of a Bech32 text before the checksum is verified, so Turkish locales refuse valid upper-case texts with an `I` in the prefix (`C100_violated_turkish`; the prefixes of Bitcoin's networks have none: `C100_address`) |
| C101 | characters are looked up in tables at offsets that are the characters themselves, so whoever sees which entry is read gets the secret (`C101_violated_recover_hex`, `_base64`, `_base32`, `_base58`, `_wif`, `_exkey`) |
| C103 | the byte 1 is read as zero too (`C103_violated_two_zeros`); overflowing ten-byte inputs as for C23 |
| C39, C42 | a Bech32 text can also be Base58Check text; base58 is tried first |
| C44 | non-zero padding and a surplus group are accepted in segwit addresses |
| C46, C54 | texts longer than the fixed local array overrun it before any check |
| C43, C46, C54 | where `char` is signed, a character of 0x80 to 0xFE met by the base58 scan makes it undefined (`isspace`, table index); so does a text of more than about 2.9 million significant characters (`int` overflow of the size) |
| C58 | `fingera_os_rand_bytes` does not advance its pointer: after a short read part of the buffer is never filled |
| C62 | depth 255 wraps to 0 in BIP 32 derivation |
| C63 | extended keys with invalid secret or public keys, or a wrong pad byte, are accepted |
| C108 | `pos + 7` is formed before the length is looked at: undefined for refused texts with the last '1' among the last five characters at the end of their object |
| C110 | with parameters of one's own: secret-key prefixes of 5–8 bytes (4–8 compressed) and extended-key prefixes of 5–8 bytes overrun local arrays when one's own text is read; without prefix uncompressed and extended keys are refused; a script prefix that starts with the key-hash prefix makes script addresses key-hash addresses; HRPs of more than 16 characters, with an upper-case letter or a character outside 33..126 are refused in every text, though the encoders write them |
| C111 | ECDSA itself: hashes of the same residue modulo n share signatures; the owner of the key can name a second hash, anybody a second public key, for which a signature is accepted |
| C112 | BIP 32 itself: from the extended public key of an ancestor and the secret key of a descendant on a path without hardened indices the ancestor's secret key is computed |
| C113 | RFC 2104 and Bitcoin themselves: HMAC keys differing by trailing zero bytes (or a long key and its digest) are the same key; a Merkle root does not change when the last of an odd number of leaves is repeated, and a node is not told from a leaf |
| C114 | ECDSA itself: from two accepted signatures with the same `r` for hashes of different residues the secret key is computed ; for every key there are such hashes, or one for which signing never finishes |
| C115 | SHA-256, SHA-512, SHA-1 and RIPEMD-160 themselves: from digest and length of a text the digest of that text, its padding and any ending is computed |
| C116 | the alphabets of Base64, Base32 and Bech32 are not in the order of their characters; Base58 texts and varints of different lengths compare by their first characters |
| C117 | there are more secret keys than key ids and fingerprints: some key id belongs to at least 2^95 keys, some fingerprint to at least 2^223 |
