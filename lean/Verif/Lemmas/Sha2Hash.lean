import Verif.Lemmas.Sha2
import Verif.Spec.Hmac

namespace Sha2
open Sha2Spec WordSpec HashCommon Endian HmacSpec

variable {w : Nat}

/-- All blocks of an already padded message. -/
def runBlocks (v : Variant w) (H : List (BitVec w)) (padded : List Byte) : List (BitVec w) :=
  (pieces v.blockBytes padded).foldl (fun d b => compress v d (words v b)) H

theorem hashWords_eq (v : Variant w) (msg : List Byte) :
    hashWords v msg = runBlocks v v.H0 (pad v msg) := by
  rw [hashWords, runBlocks, List.foldl_map]

theorem runBlocks_cons (v : Variant w) (H : List (BitVec w)) (b rest : List Byte)
    (hB : 0 < v.blockBytes) (h : b.length = v.blockBytes) :
    runBlocks v H (b ++ rest) = runBlocks v (compress v H (words v b)) rest := by
  rw [runBlocks, pieces_cons _ hB _ _ h]; rfl

theorem compress_length (v : Variant w) (H M : List (BitVec w)) : (compress v H M).length = 8 := rfl

theorem runBlocks_length (v : Variant w) (H : List (BitVec w)) (m : List Byte) (h : H.length = 8) :
    (runBlocks v H m).length = 8 := by
  rw [runBlocks]
  generalize pieces v.blockBytes m = ps
  induction ps generalizing H with
  | nil => exact h
  | cons p ps ih => exact ih _ (compress_length _ _ _)

theorem bitLength_toNat (n a : Nat) (h : n + a < 2^61) : (bitLength n a).toNat = 8 * (n + a) := by
  rw [bitLength, BitVec.toNat_shiftLeft, BitVec.toNat_ofNat, Nat.shiftLeft_eq,
    Nat.mod_eq_of_lt (by omega : n + a < 2^64), Nat.mod_eq_of_lt (by omega)]
  omega

theorem beBytes16 (n : Nat) (h : n < 2^64) : beBytes 16 n = List.replicate 8 0#8 ++ beBytes 8 n := by
  have e : ∀ k, 8 ≤ k → BitVec.ofNat 8 (n / 256^k) = 0#8 := by
    intro k hk
    rw [Nat.div_eq_of_lt]
    exact Nat.lt_of_lt_of_le h (by
      rw [show (256:Nat) = 2^8 by rfl, ← Nat.pow_mul]; exact Nat.pow_le_pow_right (by omega) (by omega))
  simp only [beBytes, List.range, List.range.loop, List.map]
  rw [e 15 (by omega), e 14 (by omega), e 13 (by omega), e 12 (by omega), e 11 (by omega),
    e 10 (by omega), e 9 (by omega), e 8 (by omega)]
  rfl

theorem zeros256 (n k : Nat) : zeros Sha2Spec.sha256 (64 * k + n) = zeroCount 64 55 n := by
  simp only [zeros, Sha2Spec.sha256, zeroCount]
  split <;> omega

theorem zeros512 (n k : Nat) : 8 + zeros Sha2Spec.sha512 (128 * k + n) = zeroCount 128 111 n := by
  simp only [zeros, Sha2Spec.sha512, zeroCount]
  split <;> omega

/-- `sha256_final` continues the hash computation of a message of which `pre` (whole blocks) has
already been absorbed. -/
theorem sha256Final_eq (host : Host) (H : List U32) (hH : H.length = 8) (msg : List Byte) (n k : Nat)
    (hn : n ≤ msg.length) (hlen : n + 64 * k < 2^61) (pre : List Byte) (hp : pre.length = 64 * k) :
    ∃ tail, sha256Final host H msg n (64 * k) = .ok (runBlocks Sha2Spec.sha256 H tail) ∧
      pre ++ tail = pad Sha2Spec.sha256 (pre ++ msg.take n) := by
  refine ⟨_, finish_eq (sha256Transform host)
    (fun d b => compress Sha2Spec.sha256 d (words Sha2Spec.sha256 b)) 64 55 (by omega)
    (fun d => d.length = 8) (fun d b h => rfl)
    (fun d b h h2 => sha256Transform_eq host d b h h2) _ (bytes64_length _ _) H hH msg n hn, ?_⟩
  have hl : (pre ++ msg.take n).length = 64 * k + n := by
    rw [List.length_append, List.length_take, hp]; omega
  rw [pad, hl, zeros256, bytes64_htobe64, bitLength_toNat _ _ hlen]
  simp only [List.append_assoc]
  rw [show 8 * (n + 64 * k) = 8 * (64 * k + n) by omega]
  rfl

theorem sha512Final_eq (host : Host) (H : List U64) (hH : H.length = 8) (msg : List Byte) (n k : Nat)
    (hn : n ≤ msg.length) (hlen : n + 128 * k < 2^61) (pre : List Byte) (hp : pre.length = 128 * k) :
    ∃ tail, sha512Final host H msg n (128 * k) = .ok (runBlocks Sha2Spec.sha512 H tail) ∧
      pre ++ tail = pad Sha2Spec.sha512 (pre ++ msg.take n) := by
  refine ⟨_, finish_eq (sha512Transform host)
    (fun d b => compress Sha2Spec.sha512 d (words Sha2Spec.sha512 b)) 128 111 (by omega)
    (fun d => d.length = 8) (fun d b h => rfl)
    (fun d b h h2 => sha512Transform_eq host d b h h2) _ (bytes64_length _ _) H hH msg n hn, ?_⟩
  have hl : (pre ++ msg.take n).length = 128 * k + n := by
    rw [List.length_append, List.length_take, hp]; omega
  rw [pad, hl, bytes64_htobe64, bitLength_toNat _ _ hlen, ← zeros512 n k]
  show _ = _ ++ beBytes 16 (8 * (128 * k + n))
  rw [beBytes16 _ (by omega), Nat.add_comm 8, ← List.replicate_append_replicate]
  simp only [List.append_assoc]
  rw [show 8 * (n + 128 * k) = 8 * (128 * k + n) by omega]

theorem storeBig32_over (host : Host) (xs : List U32) (W out : List Byte) (off : Nat)
    (ho : off = W.length) (h : W.length + 4 * xs.length ≤ out.length) :
    storeBig32 host (over W out) off xs =
      .ok (over (W ++ xs.flatMap fun x => beBytes 4 x.toNat) out) := by
  induction xs generalizing W off with
  | nil => simp [storeBig32]
  | cons x xs ih =>
    simp only [List.length_cons] at h
    rw [storeBig32, store32, memcpy_over W out _ off 4 ho (by rw [bytes32_length]; omega) (by omega),
      List.take_of_length_le (by rw [bytes32_length]; omega), bytes32_htobe32]
    simp only [Res.ok_bind]
    rw [ih (W ++ beBytes 4 x.toNat) (off + 4) (by simp [beBytes_length, ho])
      (by simp [beBytes_length]; omega)]
    simp

theorem storeBig64_over (host : Host) (xs : List U64) (W out : List Byte) (off : Nat)
    (ho : off = W.length) (h : W.length + 8 * xs.length ≤ out.length) :
    storeBig64 host (over W out) off xs =
      .ok (over (W ++ xs.flatMap fun x => beBytes 8 x.toNat) out) := by
  induction xs generalizing W off with
  | nil => simp [storeBig64]
  | cons x xs ih =>
    simp only [List.length_cons] at h
    rw [storeBig64, store64, memcpy_over W out _ off 8 ho (by rw [bytes64_length]; omega) (by omega),
      List.take_of_length_le (by rw [bytes64_length]; omega), bytes64_htobe64]
    simp only [Res.ok_bind]
    rw [ih (W ++ beBytes 8 x.toNat) (off + 8) (by simp [beBytes_length, ho])
      (by simp [beBytes_length]; omega)]
    simp

theorem storeBig32_eq (host : Host) (xs : List U32) (out : List Byte) (h : 4 * xs.length ≤ out.length) :
    storeBig32 host out 0 xs = .ok (over (xs.flatMap fun x => beBytes 4 x.toNat) out) := by
  have := storeBig32_over host xs [] out 0 rfl (by simpa using h)
  simpa using this

theorem storeBig64_eq (host : Host) (xs : List U64) (out : List Byte) (h : 8 * xs.length ≤ out.length) :
    storeBig64 host out 0 xs = .ok (over (xs.flatMap fun x => beBytes 8 x.toNat) out) := by
  have := storeBig64_over host xs [] out 0 rfl (by simpa using h)
  simpa using this

theorem H0_length256 : Sha2Spec.sha256.H0.length = 8 := by decide
theorem H0_length512 : Sha2Spec.sha512.H0.length = 8 := by decide

theorem sha2_256_eq (host : Host) (msg : List Byte) (n : Nat) (hash : List Byte)
    (hn : n ≤ msg.length) (hlen : n < 2^61) (hh : 32 ≤ hash.length) :
    sha2_256 host msg n hash = .ok (over (SHA256 (msg.take n)) hash) := by
  obtain ⟨tail, h1, h2⟩ := sha256Final_eq host iv256 rfl msg n 0 hn (by omega) [] rfl
  rw [sha2_256]
  rw [show (64 * 0 : Nat) = 0 by rfl] at h1
  rw [h1]
  simp only [Res.ok_bind]
  rw [storeBig32_eq _ _ _ (by rw [runBlocks_length _ _ _ rfl]; omega)]
  rw [List.nil_append, List.nil_append] at h2
  rw [SHA256, Sha2Spec.hash, hashWords_eq, ← h2, iv256_eq]
  rfl

theorem sha2_512_eq (host : Host) (msg : List Byte) (n : Nat) (hash : List Byte)
    (hn : n ≤ msg.length) (hlen : n < 2^61) (hh : 64 ≤ hash.length) :
    sha2_512 host msg n hash = .ok (over (SHA512 (msg.take n)) hash) := by
  obtain ⟨tail, h1, h2⟩ := sha512Final_eq host iv512 rfl msg n 0 hn (by omega) [] rfl
  rw [sha2_512]
  rw [show (128 * 0 : Nat) = 0 by rfl] at h1
  rw [h1]
  simp only [Res.ok_bind]
  rw [storeBig64_eq _ _ _ (by rw [runBlocks_length _ _ _ rfl]; omega)]
  rw [List.nil_append, List.nil_append] at h2
  rw [SHA512, Sha2Spec.hash, hashWords_eq, ← h2, iv512_eq]
  rfl

theorem flatMap_beBytes_length (k : Nat) (xs : List (BitVec w)) :
    (xs.flatMap fun x => beBytes k x.toNat).length = k * xs.length := by
  induction xs with
  | nil => simp
  | cons x xs ih =>
    rw [List.flatMap_cons, List.length_append, ih, beBytes_length, List.length_cons, Nat.mul_succ]; omega

theorem SHA256_length (msg : List Byte) : (SHA256 msg).length = 32 := by
  rw [SHA256, Sha2Spec.hash, hashWords_eq]
  exact (flatMap_beBytes_length _ _).trans (by rw [runBlocks_length _ _ _ H0_length256]; rfl)

theorem SHA512_length (msg : List Byte) : (SHA512 msg).length = 64 := by
  rw [SHA512, Sha2Spec.hash, hashWords_eq]
  exact (flatMap_beBytes_length _ _).trans (by rw [runBlocks_length _ _ _ H0_length512]; rfl)

/-- Hash of a message whose first block has been absorbed by a transform. -/
theorem sha256_after_block (host : Host) (blk : List Byte) (hb : blk.length = 64) (msg : List Byte)
    (n : Nat) (hn : n ≤ msg.length) (hlen : n + 64 < 2^61) :
    ∃ d, sha256Transform host iv256 blk = .ok d ∧
      sha256Final host d msg n 64 = .ok (hashWords Sha2Spec.sha256 (blk ++ msg.take n)) := by
  refine ⟨_, sha256Transform_eq host iv256 blk rfl (by omega), ?_⟩
  obtain ⟨tail, h1, h2⟩ := sha256Final_eq host
    (compress Sha2Spec.sha256 iv256 (words Sha2Spec.sha256 (blk.take 64))) rfl msg n 1 hn hlen blk hb
  rw [show (64 * 1 : Nat) = 64 by rfl] at h1
  rw [h1, hashWords_eq, ← h2, runBlocks_cons _ _ _ _ (by decide) hb, iv256_eq,
    List.take_of_length_le (by omega)]

theorem sha512_after_block (host : Host) (blk : List Byte) (hb : blk.length = 128) (msg : List Byte)
    (n : Nat) (hn : n ≤ msg.length) (hlen : n + 128 < 2^61) :
    ∃ d, sha512Transform host iv512 blk = .ok d ∧
      sha512Final host d msg n 128 = .ok (hashWords Sha2Spec.sha512 (blk ++ msg.take n)) := by
  refine ⟨_, sha512Transform_eq host iv512 blk rfl (by omega), ?_⟩
  obtain ⟨tail, h1, h2⟩ := sha512Final_eq host
    (compress Sha2Spec.sha512 iv512 (words Sha2Spec.sha512 (blk.take 128))) rfl msg n 1 hn hlen blk hb
  rw [show (128 * 1 : Nat) = 128 by rfl] at h1
  rw [h1, hashWords_eq, ← h2, runBlocks_cons _ _ _ _ (by decide) hb, iv512_eq,
    List.take_of_length_le (by omega)]

/-! ### HMAC -/

theorem ext_xor (x y : U64) (s : Nat) :
    (x ^^^ y).extractLsb' s 8 = x.extractLsb' s 8 ^^^ y.extractLsb' s 8 := by
  apply BitVec.eq_of_getLsbD_eq
  intro i hi
  simp [BitVec.getLsbD_xor, hi]

theorem bytes64_xor (host : Host) (b0 b1 b2 b3 b4 b5 b6 b7 p : Byte) (P : U64)
    (hP : P = p ++ p ++ p ++ p ++ p ++ p ++ p ++ p) :
    bytes64 host (native64 host b0 b1 b2 b3 b4 b5 b6 b7 ^^^ P) =
      [b0 ^^^ p, b1 ^^^ p, b2 ^^^ p, b3 ^^^ p, b4 ^^^ p, b5 ^^^ p, b6 ^^^ p, b7 ^^^ p] := by
  subst hP
  obtain ⟨p0, p1, p2, p3, p4, p5, p6, p7⟩ := ext64 p p p p p p p p
  cases host with
  | big =>
    obtain ⟨e0, e1, e2, e3, e4, e5, e6, e7⟩ := ext64 b0 b1 b2 b3 b4 b5 b6 b7
    simp only [bytes64, native64, ext_xor, e0, e1, e2, e3, e4, e5, e6, e7, p0, p1, p2, p3, p4, p5,
      p6, p7]
  | little =>
    obtain ⟨e0, e1, e2, e3, e4, e5, e6, e7⟩ := ext64 b7 b6 b5 b4 b3 b2 b1 b0
    simp only [bytes64, native64, ext_xor, e0, e1, e2, e3, e4, e5, e6, e7, p0, p1, p2, p3, p4, p5,
      p6, p7]

theorem xorWords_eq (host : Host) (P : U64) (p : Byte) (hP : P = p ++ p ++ p ++ p ++ p ++ p ++ p ++ p)
    (buf : List Byte) (n : Nat) (hb : buf.length = 8 * n) :
    xorWords host P buf n = .ok (buf.map (· ^^^ p)) := by
  rw [xorWords]
  have := forLoop_eq (fun i out => do
    let x ← load64 host buf (8 * i)
    store64 host out (8 * i) (x ^^^ P))
    (fun i => over ((buf.take (8*i)).map (· ^^^ p)) (List.replicate (8 * n) 0xAA#8)) n 0 (by
      intro j _ hj
      have hl : ((buf.take (8*j)).map (· ^^^ p)).length = 8 * j := by simp; omega
      rw [load64_eq host buf (8*j) (by omega)]
      simp only [Res.ok_bind, store64]
      rw [memcpy_over _ _ _ _ _ hl.symm (by rw [bytes64_length]; omega) (by simp; omega),
        List.take_of_length_le (l := bytes64 _ _) (by rw [bytes64_length]; omega), bytes64_xor host _ _ _ _ _ _ _ _ p P hP]
      congr 2
      rw [show 8 * (j+1) = 8 * j + 8 by omega, List.take_add, List.map_append,
        take8_drop buf (8*j) (by omega)]
      rfl)
  simp only [Nat.mul_zero, List.take_zero, List.map_nil, over_nil, Nat.zero_add] at this
  rw [this, List.take_of_length_le (by omega), over, List.drop_eq_nil_of_le (by simp; omega),
    List.append_nil]

theorem pad36 : (0x3636363636363636#64 : U64) =
    (0x36#8 : Byte) ++ (0x36#8 : Byte) ++ (0x36#8 : Byte) ++ (0x36#8 : Byte) ++ (0x36#8 : Byte) ++
      (0x36#8 : Byte) ++ (0x36#8 : Byte) ++ (0x36#8 : Byte) := by decide +kernel
theorem pad5c : (0x5C5C5C5C5C5C5C5C#64 : U64) =
    (0x5c#8 : Byte) ++ (0x5c#8 : Byte) ++ (0x5c#8 : Byte) ++ (0x5c#8 : Byte) ++ (0x5c#8 : Byte) ++
      (0x5c#8 : Byte) ++ (0x5c#8 : Byte) ++ (0x5c#8 : Byte) := by decide +kernel

theorem digestBytes32 (host : Host) (xs : List U32) :
    (xs.map (htobe32 host)).flatMap (bytes32 host) = xs.flatMap fun x => beBytes 4 x.toNat := by
  rw [List.flatMap_map]
  congr 1
  funext x
  exact bytes32_htobe32 host x

theorem digestBytes64 (host : Host) (xs : List U64) :
    (xs.map (htobe64 host)).flatMap (bytes64 host) = xs.flatMap fun x => beBytes 8 x.toNat := by
  rw [List.flatMap_map]
  congr 1
  funext x
  exact bytes64_htobe64 host x

theorem blockKey_length (H : List Byte → List Byte) (B : Nat) (key : List Byte)
    (hH : ∀ m, (H m).length ≤ B) : (blockKey H B key).length = B := by
  simp only [blockKey]
  split
  · simp; omega
  · have := hH key
    simp; omega

theorem hmac_sha256_eq (host : Host) (key : List Byte) (kn : Nat) (msg : List Byte) (n : Nat)
    (out : List Byte) (hk : kn ≤ key.length) (hk2 : kn < 2^61) (hn : n ≤ msg.length)
    (hn2 : n + 64 < 2^61) (ho : 32 ≤ out.length) :
    hmac_sha256 host key kn msg n out =
      .ok (over (hmac SHA256 64 (key.take kn) (msg.take n)) out) := by
  have hkl : (key.take kn).length = kn := by rw [List.length_take]; omega
  have hbuf : hmacBuffer256 host key kn = Res.ok (blockKey SHA256 64 (key.take kn)) := by
    rw [hmacBuffer256]
    by_cases h : kn ≤ 64
    · rw [if_pos h, memcpy_ok _ _ _ _ hk (by simp; omega)]
      simp only [Res.ok_bind, blockKey, hkl, if_pos h]
      simp only [List.take_zero, List.nil_append, List.drop_replicate]
      rw [memset, if_pos (by simp [hkl]), List.drop_eq_nil_of_le (by simp [hkl]),
        List.append_nil, List.take_left' hkl]
    · rw [if_neg h, sha2_256_eq host key kn _ hk hk2 (by simp)]
      simp only [Res.ok_bind, blockKey, hkl, if_neg h]
      have hs := SHA256_length (key.take kn)
      rw [memset, if_pos (by rw [over_length _ _ (by simp [hs])]; simp)]
      simp only [over, hs]
      rw [List.take_left' hs, List.drop_eq_nil_of_le (by simp [hs])]
      simp
  have hK : (blockKey SHA256 64 (key.take kn)).length = 64 :=
    blockKey_length _ _ _ (fun m => by rw [SHA256_length]; omega)
  rw [hmac_sha256]
  simp only [hbuf, Res.ok_bind]
  rw [xorWords_eq host _ 0x36#8 pad36 _ 8 hK, xorWords_eq host _ 0x5c#8 pad5c _ 8 hK]
  simp only [Res.ok_bind]
  obtain ⟨d, h1, h2⟩ := sha256_after_block host ((blockKey SHA256 64 (key.take kn)).map (· ^^^ 0x36#8))
    (by rw [List.length_map, hK]) msg n hn hn2
  rw [h1]
  simp only [Res.ok_bind]
  rw [h2]
  simp only [Res.ok_bind, digestBytes32]
  have e : (hashWords Sha2Spec.sha256
      (List.map (fun x => x ^^^ 54#8) (blockKey SHA256 64 (List.take kn key)) ++ List.take n msg)).flatMap
        (fun x => beBytes 4 x.toNat) =
      SHA256 (List.map (fun x => x ^^^ 54#8) (blockKey SHA256 64 (List.take kn key)) ++ List.take n msg) :=
    rfl
  rw [e]
  generalize hin : SHA256 (List.map (fun x => x ^^^ 54#8) (blockKey SHA256 64 (List.take kn key)) ++
    List.take n msg) = inner
  have hil : inner.length = 32 := by rw [← hin]; exact SHA256_length _
  obtain ⟨d2, h3, h4⟩ := sha256_after_block host ((blockKey SHA256 64 (key.take kn)).map (· ^^^ 0x5c#8))
    (by rw [List.length_map, hK]) inner 32 (by omega) (by omega)
  rw [h3]
  simp only [Res.ok_bind]
  rw [h4]
  simp only [Res.ok_bind]
  rw [storeBig32_eq _ _ _ (by
    rw [hashWords_eq, runBlocks_length _ _ _ H0_length256]; omega)]
  rw [hmac, hin, List.take_of_length_le (l := inner) (by omega)]
  rfl

theorem hmac_sha512_eq (host : Host) (key : List Byte) (kn : Nat) (msg : List Byte) (n : Nat)
    (out : List Byte) (hk : kn ≤ key.length) (hk2 : kn < 2^61) (hn : n ≤ msg.length)
    (hn2 : n + 128 < 2^61) (ho : 64 ≤ out.length) :
    hmac_sha512 host key kn msg n out =
      .ok (over (hmac SHA512 128 (key.take kn) (msg.take n)) out) := by
  have hkl : (key.take kn).length = kn := by rw [List.length_take]; omega
  have hbuf : hmacBuffer512 host key kn = Res.ok (blockKey SHA512 128 (key.take kn)) := by
    rw [hmacBuffer512]
    by_cases h : kn ≤ 128
    · rw [if_pos h, memcpy_ok _ _ _ _ hk (by simp; omega)]
      simp only [Res.ok_bind, blockKey, hkl, if_pos h]
      simp only [List.take_zero, List.nil_append, List.drop_replicate]
      rw [memset, if_pos (by simp [hkl]), List.drop_eq_nil_of_le (by simp [hkl]),
        List.append_nil, List.take_left' hkl]
    · rw [if_neg h, sha2_512_eq host key kn _ hk hk2 (by simp)]
      simp only [Res.ok_bind, blockKey, hkl, if_neg h]
      have hs := SHA512_length (key.take kn)
      rw [memset, if_pos (by rw [over_length _ _ (by simp [hs])]; simp)]
      simp only [over, hs]
      rw [List.take_left' hs, List.drop_eq_nil_of_le (by simp [hs])]
      simp
  have hK : (blockKey SHA512 128 (key.take kn)).length = 128 :=
    blockKey_length _ _ _ (fun m => by rw [SHA512_length]; omega)
  rw [hmac_sha512]
  simp only [hbuf, Res.ok_bind]
  rw [xorWords_eq host _ 0x36#8 pad36 _ 16 hK, xorWords_eq host _ 0x5c#8 pad5c _ 16 hK]
  simp only [Res.ok_bind]
  obtain ⟨d, h1, h2⟩ := sha512_after_block host ((blockKey SHA512 128 (key.take kn)).map (· ^^^ 0x36#8))
    (by rw [List.length_map, hK]) msg n hn hn2
  rw [h1]
  simp only [Res.ok_bind]
  rw [h2]
  simp only [Res.ok_bind, digestBytes64]
  have e : (hashWords Sha2Spec.sha512
      (List.map (fun x => x ^^^ 54#8) (blockKey SHA512 128 (List.take kn key)) ++ List.take n msg)).flatMap
        (fun x => beBytes 8 x.toNat) =
      SHA512 (List.map (fun x => x ^^^ 54#8) (blockKey SHA512 128 (List.take kn key)) ++ List.take n msg) :=
    rfl
  rw [e]
  generalize hin : SHA512 (List.map (fun x => x ^^^ 54#8) (blockKey SHA512 128 (List.take kn key)) ++
    List.take n msg) = inner
  have hil : inner.length = 64 := by rw [← hin]; exact SHA512_length _
  obtain ⟨d2, h3, h4⟩ := sha512_after_block host ((blockKey SHA512 128 (key.take kn)).map (· ^^^ 0x5c#8))
    (by rw [List.length_map, hK]) inner 64 (by omega) (by omega)
  rw [h3]
  simp only [Res.ok_bind]
  rw [h4]
  simp only [Res.ok_bind]
  rw [storeBig64_eq _ _ _ (by
    rw [hashWords_eq, runBlocks_length _ _ _ H0_length512]; omega)]
  rw [hmac, hin, List.take_of_length_le (l := inner) (by omega)]
  rfl

end Sha2
