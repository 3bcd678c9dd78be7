import Verif.Lemmas.BtcHash
import Verif.Spec.Sha1
import Verif.Lemmas.Sha1

/-!
Property theorems C25–C33: the hash functions, HMAC, Bitcoin's compositions and byte-order
independence.  `host` ranges over little- and big-endian machines; `over x mem` is the memory `mem`
with its first bytes replaced by `x`.
-/
open Endian Sha2Spec Sha1Spec RipemdSpec HmacSpec WordSpec

/-- C25. `fingera_sha2_256` writes the 32 bytes of the FIPS 180-4 digest of the message and touches
nothing else, on machines of either byte order. -/
theorem C25_sha256 (host : Host) (msg : List Byte) (n : Nat) (hash : List Byte)
    (hn : n ≤ msg.length) (hlen : n < 2^61) (hh : 32 ≤ hash.length) :
    Sha2.sha2_256 host msg n hash = .ok (over (SHA256 (msg.take n)) hash) ∧
      (SHA256 (msg.take n)).length = 32 :=
  ⟨Sha2.sha2_256_eq host msg n hash hn hlen hh, Sha2.SHA256_length _⟩

/-- The published test vector "abc" (FIPS 180-4 examples): the specification above is SHA-256. -/
example : SHA256 (cstr "abc") =
    [0xba, 0x78, 0x16, 0xbf, 0x8f, 0x01, 0xcf, 0xea, 0x41, 0x41, 0x40, 0xde, 0x5d, 0xae, 0x22, 0x23,
     0xb0, 0x03, 0x61, 0xa3, 0x96, 0x17, 0x7a, 0x9c, 0xb4, 0x10, 0xff, 0x61, 0xf2, 0x00, 0x15, 0xad] := by
  decide +kernel
example : (3 ≤ (cstr "abc").length ∧ 3 < 2^61 ∧ 32 ≤ (List.replicate 40 (0#8)).length) := by decide

/-- C26. The same for SHA-512 (64 bytes). -/
theorem C26_sha512 (host : Host) (msg : List Byte) (n : Nat) (hash : List Byte)
    (hn : n ≤ msg.length) (hlen : n < 2^61) (hh : 64 ≤ hash.length) :
    Sha2.sha2_512 host msg n hash = .ok (over (SHA512 (msg.take n)) hash) ∧
      (SHA512 (msg.take n)).length = 64 :=
  ⟨Sha2.sha2_512_eq host msg n hash hn hlen hh, Sha2.SHA512_length _⟩

example : (SHA512 (cstr "abc")).take 8 = [0xdd, 0xaf, 0x35, 0xa1, 0x93, 0x61, 0x7a, 0xba] := by
  decide +kernel
example : (3 ≤ (cstr "abc").length ∧ 3 < 2^61 ∧ 64 ≤ (List.replicate 64 (0#8)).length) := by decide

/-- C27. The same for SHA-1 (20 bytes). -/
theorem C27_sha1 (host : Host) (msg : List Byte) (n : Nat) (hash : List Byte)
    (hn : n ≤ msg.length) (hlen : n < 2^61) (hh : 20 ≤ hash.length) :
    Sha1.sha1 host msg n hash = .ok (over (SHA1 (msg.take n)) hash) ∧
      (SHA1 (msg.take n)).length = 20 :=
  ⟨Sha1.sha1_eq host msg n hash hn hlen hh, Sha1.SHA1_length _⟩

example : SHA1 (cstr "abc") = [0xa9, 0x99, 0x3e, 0x36, 0x47, 0x06, 0x81, 0x6a, 0xba, 0x3e, 0x25, 0x71,
    0x78, 0x50, 0xc2, 0x6c, 0x9c, 0xd0, 0xd8, 0x9d] := by decide +kernel
example : (3 ≤ (cstr "abc").length ∧ 3 < 2^61 ∧ 20 ≤ (List.replicate 25 (0#8)).length) := by decide

/-- C28. The same for RIPEMD-160 (20 bytes). -/
theorem C28_ripemd160 (host : Host) (msg : List Byte) (n : Nat) (hash : List Byte)
    (hn : n ≤ msg.length) (hlen : n < 2^61) (hh : 20 ≤ hash.length) :
    Ripemd160.ripemd160 host msg n hash = .ok (over (RIPEMD160 (msg.take n)) hash) ∧
      (RIPEMD160 (msg.take n)).length = 20 :=
  ⟨Ripemd160.ripemd160_eq host msg n hash hn hlen hh, Ripemd160.RIPEMD160_length _⟩

example : RIPEMD160 (cstr "abc") = [0x8e, 0xb2, 0x08, 0xf7, 0xe0, 0x5d, 0x98, 0x7a, 0x9b, 0x04, 0x4a,
    0x8e, 0x98, 0xc6, 0xb0, 0x87, 0xf1, 0x5a, 0x0b, 0xfc] := by decide +kernel
example : (3 ≤ (cstr "abc").length ∧ 3 < 2^61 ∧ 20 ≤ (List.replicate 20 (0#8)).length) := by decide

/-- C29. `fingera_hmac_sha256` is HMAC of RFC 2104 with SHA-256 and blocks of 64 bytes. -/
theorem C29_hmac_sha256 (host : Host) (key : List Byte) (kn : Nat) (msg : List Byte) (n : Nat)
    (out : List Byte) (hk : kn ≤ key.length) (hk2 : kn < 2^61) (hn : n ≤ msg.length)
    (hn2 : n + 64 < 2^61) (ho : 32 ≤ out.length) :
    Sha2.hmac_sha256 host key kn msg n out =
      .ok (over (hmac SHA256 64 (key.take kn) (msg.take n)) out) :=
  Sha2.hmac_sha256_eq host key kn msg n out hk hk2 hn hn2 ho

/-- RFC 4231 test case 2 for the specification, and the hypotheses with a key longer than a block. -/
example : (hmac SHA256 64 (cstr "Jefe") (cstr "what do ya want for nothing?")).take 8 =
    [0x5b, 0xdc, 0xc1, 0x46, 0xbf, 0x60, 0x75, 0x4e] := by decide +kernel
example : (131 ≤ (List.replicate 131 0xaa#8).length ∧ 131 < 2^61 ∧ 28 + 64 < 2^61 ∧
    28 ≤ (cstr "what do ya want for nothing?").length) := by decide +kernel

/-- C30. `fingera_hmac_sha512` is HMAC of RFC 2104 with SHA-512 and blocks of 128 bytes. -/
theorem C30_hmac_sha512 (host : Host) (key : List Byte) (kn : Nat) (msg : List Byte) (n : Nat)
    (out : List Byte) (hk : kn ≤ key.length) (hk2 : kn < 2^61) (hn : n ≤ msg.length)
    (hn2 : n + 128 < 2^61) (ho : 64 ≤ out.length) :
    Sha2.hmac_sha512 host key kn msg n out =
      .ok (over (hmac SHA512 128 (key.take kn) (msg.take n)) out) :=
  Sha2.hmac_sha512_eq host key kn msg n out hk hk2 hn hn2 ho

example : (hmac SHA512 128 (cstr "Jefe") (cstr "what do ya want for nothing?")).take 8 =
    [0x16, 0x4b, 0x7a, 0x7b, 0xfc, 0xf8, 0x19, 0xe2] := by decide +kernel
example : (131 ≤ (List.replicate 131 0xaa#8).length ∧ 131 < 2^61 ∧ 28 + 128 < 2^61 ∧
    28 ≤ (cstr "what do ya want for nothing?").length) := by decide +kernel

/-- C31. `fingera_btc_hash256_d64` (hand-optimised code) writes for every block what
`fingera_btc_hash256` writes for it, in order, and nothing else. -/
theorem C31_hash256_d64 (host : Host) (out inp : List Byte) (blocks : Nat)
    (ho : 32 * blocks ≤ out.length) (hi : 64 * blocks ≤ inp.length) :
    ∃ W, BtcHash.hash256_d64 host out inp blocks = .ok (over W out) ∧ W.length = 32 * blocks ∧
      ∀ i, i < blocks → ∀ hash, hash.length = 32 →
        BtcHash.hash256 host (inp.drop (64 * i)) 64 hash = .ok ((W.drop (32 * i)).take 32) := by
  refine ⟨_, BtcHash.hash256_d64_eq host out inp blocks ho hi, BtcHash.digests_length _ _, ?_⟩
  intro i hib hash hh
  rw [BtcHash.hash256_eq host _ 64 hash (by rw [List.length_drop]; omega) (by omega) (by omega)]
  have hpre : ∀ k, i < k → ((BtcHash.digests inp k).drop (32 * i)).take 32 =
      BtcHashSpec.hash256 ((inp.drop (64 * i)).take 64) := by
    intro k
    induction k with
    | zero => intro h; omega
    | succ k ih =>
      intro h
      have hl := BtcHash.digests_length inp k
      rw [BtcHash.digests_succ]
      by_cases e : i = k
      · subst e
        rw [List.drop_left' hl, List.take_of_length_le (by rw [BtcHash.hash256_length]; omega)]
      · rw [List.drop_append_of_le_length (by omega), List.take_append_of_le_length (by
          rw [List.length_drop, hl]; omega)]
        exact ih (by omega)
  rw [hpre blocks hib, over, List.drop_eq_nil_of_le (as := hash) (by rw [BtcHash.hash256_length]; omega),
    List.append_nil]

/-- C31, in terms of the standard: the output is the concatenation of the double SHA-256 digests of
the blocks; the same holds when the output overlays the input (`out == in`). -/
theorem C31_hash256_d64_digests (host : Host) (out inp : List Byte) (blocks : Nat)
    (ho : 32 * blocks ≤ out.length) (hi : 64 * blocks ≤ inp.length) :
    BtcHash.hash256_d64 host out inp blocks = .ok (over ((List.range blocks).flatMap fun i =>
      SHA256 (SHA256 ((inp.drop (64 * i)).take 64))) out) ∧
    BtcHash.hash256_d64InPlace host inp blocks = .ok (over ((List.range blocks).flatMap fun i =>
      SHA256 (SHA256 ((inp.drop (64 * i)).take 64))) inp) :=
  ⟨BtcHash.hash256_d64_eq host out inp blocks ho hi, BtcHash.hash256_d64InPlace_eq host inp blocks hi⟩

example : 32 * 3 ≤ (List.replicate 100 (0#8)).length ∧ 64 * 3 ≤ (List.replicate 192 (1#8)).length := by
  decide +kernel

/-- C32. `fingera_btc_hash160` is RIPEMD160 ∘ SHA256, `fingera_btc_hash256` is SHA256 ∘ SHA256. -/
theorem C32_compositions (host : Host) (msg : List Byte) (n : Nat) (hash : List Byte)
    (hn : n ≤ msg.length) (hlen : n < 2^61) (hh : 32 ≤ hash.length) :
    BtcHash.hash160 host msg n hash = .ok (over (RIPEMD160 (SHA256 (msg.take n))) hash) ∧
    BtcHash.hash256 host msg n hash = .ok (over (SHA256 (SHA256 (msg.take n))) hash) :=
  ⟨BtcHash.hash160_eq host msg n hash hn hlen (by omega), BtcHash.hash256_eq host msg n hash hn hlen hh⟩

/-- C32. `fingera_btc_bip32_hash` is HMAC-SHA512 keyed with the 32-byte chain code of the header
byte, the 32 data bytes and the child number, most significant byte first. -/
theorem C32_bip32_hash (host : Host) (chain : List Byte) (child : U32) (header : Byte)
    (data out : List Byte) (hc : chain.length = 32) (hd : data.length = 32) (ho : 64 ≤ out.length) :
    BtcHash.bip32_hash host chain child header data out =
      .ok (over (hmac SHA512 128 chain (header :: data ++ beBytes 4 child.toNat)) out) := by
  rw [BtcHash.bip32_hash_eq host chain child header data out (by omega) (by omega) ho,
    List.take_of_length_le (l := chain) (by omega), List.take_of_length_le (l := data) (by omega)]
  rfl

example : (List.replicate 32 (5#8)).length = 32 ∧ beBytes 4 (0x80000001#32).toNat = [0x80, 0, 0, 1] := by
  decide

/-- C33 (helpers). `read_little_32`/`write_little_32` and `read_big_32`/`write_big_32` move the
value to and from memory least resp. most significant byte first on every host. -/
theorem C33_helpers (host : Host) (mem : List Byte) (off : Nat) (h : off + 4 ≤ mem.length) (v : U32) :
    readLittle32 host mem off = .ok (BitVec.ofNat 32 (leNat ((mem.drop off).take 4))) ∧
    readBig32 host mem off = .ok (BitVec.ofNat 32 (beNat ((mem.drop off).take 4))) ∧
    writeLittle32 host mem off v =
      .ok (mem.take off ++ leBytes 4 v.toNat ++ mem.drop (off + 4)) ∧
    writeBig32 host mem off v =
      .ok (mem.take off ++ beBytes 4 v.toNat ++ mem.drop (off + 4)) := by
  refine ⟨?_, readBig32_eq host mem off h, ?_, ?_⟩
  · rw [readLittle32_eq host mem off h, leNat_reverse]
  · rw [writeLittle32, store32, memcpy_ok _ _ _ _ (by rw [bytes32_length]; omega) h,
      List.take_of_length_le (l := bytes32 _ _) (by rw [bytes32_length]; omega), bytes32_htole32]
  · rw [writeBig32, store32, memcpy_ok _ _ _ _ (by rw [bytes32_length]; omega) h,
      List.take_of_length_le (l := bytes32 _ _) (by rw [bytes32_length]; omega), bytes32_htobe32]

/-- C33 (64-bit reads). -/
theorem C33_helpers64 (host : Host) (mem : List Byte) (off : Nat) (h : off + 8 ≤ mem.length) :
    readLittle64 host mem off = .ok (BitVec.ofNat 64 (leNat ((mem.drop off).take 8))) ∧
    readBig64 host mem off = .ok (BitVec.ofNat 64 (beNat ((mem.drop off).take 8))) := by
  refine ⟨?_, readBig64_eq host mem off h⟩
  rw [readLittle64_eq host mem off h, leNat_reverse]

theorem beNat_beBytes4 (v : U32) : BitVec.ofNat 32 (beNat (beBytes 4 v.toNat)) = v :=
  Sha2.beNat_beBytes4 v

theorem leNat_leBytes4 (x : U32) : BitVec.ofNat 32 (leNat (leBytes 4 x.toNat)) = x := by
  apply BitVec.eq_of_toNat_eq
  have := x.isLt
  simp only [leBytes, List.range, List.range.loop, List.map, leNat, BitVec.toNat_ofNat]
  omega

/-- C33 (read inverts write). What one host wrote, any other host reads back. -/
theorem C33_read_write (host host' : Host) (mem mem' : List Byte) (off : Nat) (v : U32)
    (h : off + 4 ≤ mem.length) :
    (writeLittle32 host mem off v = .ok mem' → readLittle32 host' mem' off = .ok v) ∧
    (writeBig32 host mem off v = .ok mem' → readBig32 host' mem' off = .ok v) := by
  obtain ⟨-, -, hwl, hwb⟩ := C33_helpers host mem off h v
  have hto : (mem.take off).length = off := by rw [List.length_take]; omega
  constructor
  · intro e
    rw [hwl] at e
    injection e with e
    subst e
    have hl : off + 4 ≤ (mem.take off ++ leBytes 4 v.toNat ++ mem.drop (off + 4)).length := by
      simp [leBytes_length]; omega
    rw [(C33_helpers host' _ off hl v).1, List.append_assoc, List.drop_left' hto,
      List.take_left' (leBytes_length _ _), leNat_leBytes4]
  · intro e
    rw [hwb] at e
    injection e with e
    subst e
    have hl : off + 4 ≤ (mem.take off ++ beBytes 4 v.toNat ++ mem.drop (off + 4)).length := by
      simp [beBytes_length]; omega
    rw [(C33_helpers host' _ off hl v).2.1, List.append_assoc, List.drop_left' hto,
      List.take_left' (beBytes_length _ _), beNat_beBytes4]

/-- C33 (hashes). All hash functions give the same bytes on little- and big-endian hosts. -/
theorem C33_hashes_host_independent (h1 h2 : Host) (msg : List Byte) (n : Nat) (key : List Byte)
    (kn : Nat) (out : List Byte) (hn : n ≤ msg.length) (hk : kn ≤ key.length) (hn2 : n + 128 < 2^61)
    (hk2 : kn < 2^61) (ho : 64 ≤ out.length) :
    Sha2.sha2_256 h1 msg n out = Sha2.sha2_256 h2 msg n out ∧
    Sha2.sha2_512 h1 msg n out = Sha2.sha2_512 h2 msg n out ∧
    Sha1.sha1 h1 msg n out = Sha1.sha1 h2 msg n out ∧
    Ripemd160.ripemd160 h1 msg n out = Ripemd160.ripemd160 h2 msg n out ∧
    Sha2.hmac_sha256 h1 key kn msg n out = Sha2.hmac_sha256 h2 key kn msg n out ∧
    Sha2.hmac_sha512 h1 key kn msg n out = Sha2.hmac_sha512 h2 key kn msg n out ∧
    BtcHash.hash160 h1 msg n out = BtcHash.hash160 h2 msg n out ∧
    BtcHash.hash256 h1 msg n out = BtcHash.hash256 h2 msg n out := by
  refine ⟨?_, ?_, ?_, ?_, ?_, ?_, ?_, ?_⟩
  · rw [(C25_sha256 h1 msg n out hn (by omega) (by omega)).1, (C25_sha256 h2 msg n out hn (by omega) (by omega)).1]
  · rw [(C26_sha512 h1 msg n out hn (by omega) (by omega)).1, (C26_sha512 h2 msg n out hn (by omega) (by omega)).1]
  · rw [(C27_sha1 h1 msg n out hn (by omega) (by omega)).1, (C27_sha1 h2 msg n out hn (by omega) (by omega)).1]
  · rw [(C28_ripemd160 h1 msg n out hn (by omega) (by omega)).1,
      (C28_ripemd160 h2 msg n out hn (by omega) (by omega)).1]
  · rw [C29_hmac_sha256 h1 key kn msg n out hk hk2 hn (by omega) (by omega),
      C29_hmac_sha256 h2 key kn msg n out hk hk2 hn (by omega) (by omega)]
  · rw [C30_hmac_sha512 h1 key kn msg n out hk hk2 hn (by omega) (by omega),
      C30_hmac_sha512 h2 key kn msg n out hk hk2 hn (by omega) (by omega)]
  · rw [(C32_compositions h1 msg n out hn (by omega) (by omega)).1,
      (C32_compositions h2 msg n out hn (by omega) (by omega)).1]
  · rw [(C32_compositions h1 msg n out hn (by omega) (by omega)).2,
      (C32_compositions h2 msg n out hn (by omega) (by omega)).2]

example : writeLittle32 .big [0, 0, 0, 0, 0, 0] 1 0x11223344#32 = .ok [0, 0x44, 0x33, 0x22, 0x11, 0] ∧
    readLittle32 .little [0, 0x44, 0x33, 0x22, 0x11, 0] 1 = .ok 0x11223344#32 := by decide +kernel
