import Verif.Model.HashCommon
import Verif.Model.Sha2Prog

/-! `src/hash/sha2.c`. -/
namespace Sha2
open Endian HashCommon

/-- `ROL`, `ROL64`, sha2.c 8-9 (for 32- and 64-bit words). -/
def rol {w : Nat} (x : BitVec w) (n : Nat) : BitVec w := (x <<< n) ||| (x >>> (w - n))
/-- `Ch`, sha2.c 11. -/
def ch {w : Nat} (x y z : BitVec w) : BitVec w := z ^^^ (x &&& (y ^^^ z))
/-- `Maj`, sha2.c 12. -/
def maj {w : Nat} (x y z : BitVec w) : BitVec w := (x &&& y) ||| (z &&& (x ||| y))
/-- `Sigma032`, sha2.c 13. -/
def Sigma032 (x : U32) : U32 := rol x 30 ^^^ rol x 19 ^^^ rol x 10
/-- `Sigma132`, sha2.c 14. -/
def Sigma132 (x : U32) : U32 := rol x 26 ^^^ rol x 21 ^^^ rol x 7
/-- `sigma032`, sha2.c 15. -/
def sigma032 (x : U32) : U32 := rol x 25 ^^^ rol x 14 ^^^ (x >>> 3)
/-- `sigma132`, sha2.c 16. -/
def sigma132 (x : U32) : U32 := rol x 15 ^^^ rol x 13 ^^^ (x >>> 10)
/-- `Sigma064`, sha2.c 17. -/
def Sigma064 (x : U64) : U64 := rol x 36 ^^^ rol x 30 ^^^ rol x 25
/-- `Sigma164`, sha2.c 18. -/
def Sigma164 (x : U64) : U64 := rol x 50 ^^^ rol x 46 ^^^ rol x 23
/-- `sigma064`, sha2.c 19. -/
def sigma064 (x : U64) : U64 := rol x 63 ^^^ rol x 56 ^^^ (x >>> 7)
/-- `sigma164`, sha2.c 20. -/
def sigma164 (x : U64) : U64 := rol x 45 ^^^ rol x 3 ^^^ (x >>> 6)

/-- The word-size dependent macros used by a program of rounds: `t1` and `t2` are the two locals of
the round macro. -/
structure Macros (w : Nat) where
  t1 : (h e f g k wt : BitVec w) → BitVec w
  t2 : (a b c : BitVec w) → BitVec w
  s0 : BitVec w → BitVec w
  s1 : BitVec w → BitVec w

/-- `ROUND32`, sha2.c 22-28: the argument `k` of the macro is the sum of the constant and the message
word.  In C some of the sums are evaluated in 64 bits (constants with suffix `ul`) and reduced when
stored in the 32-bit `t1`; since only additions are involved this is addition of 32-bit words. -/
def macros32 : Macros 32 where
  t1 h e f g k wt := h + Sigma132 e + ch e f g + (k + wt)
  t2 a b c := Sigma032 a + maj a b c
  s0 := sigma032
  s1 := sigma132

/-- `ROUND64`, sha2.c 29-35. -/
def macros64 : Macros 64 where
  t1 h e f g k wt := h + Sigma164 e + ch e f g + k + wt
  t2 a b c := Sigma064 a + maj a b c
  s0 := sigma064
  s1 := sigma164

variable {w : Nat}

/-- Reading the local variable `w_i`; reading it before it was assigned is undefined. -/
def readW (W : List (Option (BitVec w))) (i : Nat) : Res (BitVec w) :=
  match W.getD i none with
  | some v => .ok v
  | none => .ub

/-- Value of a summand (`be` is `be32(chunk, ·)` or `be64(chunk, ·)`). -/
def evalTerm (m : Macros w) (be : Nat → Res (BitVec w)) (W : List (Option (BitVec w))) :
    Term → Res (BitVec w)
  | .be off => be off
  | .w i => readW W i
  | .s0 i => do pure (m.s0 (← readW W i))
  | .s1 i => do pure (m.s1 (← readW W i))
  | .c v => .ok (BitVec.ofNat w v)

/-- `acc + t1 + t2 + …`. -/
def evalSum (m : Macros w) (be : Nat → Res (BitVec w)) (W : List (Option (BitVec w))) :
    BitVec w → List Term → Res (BitVec w)
  | acc, [] => .ok acc
  | acc, t :: ts => do
    let x ← evalTerm m be W t
    evalSum m be W (acc + x) ts

/-- The message part of a round: its value and the new `w_i`. -/
def evalOp (m : Macros w) (be : Nat → Res (BitVec w)) (W : List (Option (BitVec w))) :
    WOp → Res (BitVec w × List (Option (BitVec w)))
  | .none => .ok (0#w, W)
  | .use ts => do
    let x ← evalSum m be W 0#w ts
    pure (x, W)
  | .assign i ts => do
    let x ← evalSum m be W 0#w ts
    pure (x, W.set i (some x))
  | .plus i ts => do
    let x ← evalSum m be W 0#w ts
    let y := (← readW W i) + x
    pure (y, W.set i (some y))

/-- One `ROUND32` / `ROUND64`: with the registers named by the macro arguments,
`d += t1; h = t1 + t2`. -/
def execRound (m : Macros w) (be : Nat → Res (BitVec w)) (r : Round)
    (R : List (BitVec w)) (W : List (Option (BitVec w))) :
    Res (List (BitVec w) × List (Option (BitVec w))) := do
  let (x, W) ← evalOp m be W r.op
  let v := fun j => R.getD (r.regs.getD j 0) 0#w
  let t1 := m.t1 (v 7) (v 4) (v 5) (v 6) (BitVec.ofNat w r.k) x
  let t2 := m.t2 (v 0) (v 1) (v 2)
  let R := R.set (r.regs.getD 3 0) (v 3 + t1)
  let R := R.set (r.regs.getD 7 0) (t1 + t2)
  pure (R, W)

/-- A sequence of rounds. -/
def exec (m : Macros w) (be : Nat → Res (BitVec w)) : List Round →
    List (BitVec w) → List (Option (BitVec w)) → Res (List (BitVec w) × List (Option (BitVec w)))
  | [], R, W => .ok (R, W)
  | r :: rs, R, W => do
    let (R, W) ← execRound m be r R W
    exec m be rs R W

/-- The sixteen uninitialised locals `w0 … w15`. -/
def noW : List (Option (BitVec w)) := List.replicate 16 none

/-- `sha256_transform`, sha2.c 380-506.  `s` is an array of eight words; returns its new contents. -/
def sha256Transform (host : Host) (s : List U32) (chunk : List Byte) : Res (List U32) := do
  let (R, _) ← exec macros32 (readBig32 host chunk) sha256Prog s noW
  pure (List.zipWith (· + ·) s R)

/-- `sha512_transform`, sha2.c 508-669. -/
def sha512Transform (host : Host) (s : List U64) (chunk : List Byte) : Res (List U64) := do
  let (R, _) ← exec macros64 (readBig64 host chunk) sha512Prog s noW
  pure (List.zipWith (· + ·) s R)

/-- The initial hash value of SHA-256, sha2.c 41-48, 254-261, 698-699, 764-769. -/
def iv256 : List U32 := [0x6a09e667, 0xbb67ae85, 0x3c6ef372, 0xa54ff53a,
  0x510e527f, 0x9b05688c, 0x1f83d9ab, 0x5be0cd19]

/-- The initial hash value of SHA-512, sha2.c 741-744, 809-816. -/
def iv512 : List U64 := [0x6a09e667f3bcc908, 0xbb67ae8584caa73b, 0x3c6ef372fe94f82b,
  0xa54ff53a5f1d36f1, 0x510e527fade682d1, 0x9b05688c2b3e6c1f, 0x1f83d9abfb41bd6b,
  0x5be0cd19137e2179]

/-- `result[i] = htobe32(v_i)` for all words of the list (consecutive `uint32_t` at offset `off`). -/
def storeBig32 (host : Host) (mem : List Byte) (off : Nat) : List U32 → Res (List Byte)
  | [] => .ok mem
  | x :: xs => do
    let mem ← store32 host mem off (htobe32 host x)
    storeBig32 host mem (off + 4) xs

/-- `out[i] = htobe64(v_i)` likewise. -/
def storeBig64 (host : Host) (mem : List Byte) (off : Nat) : List U64 → Res (List Byte)
  | [] => .ok mem
  | x :: xs => do
    let mem ← store64 host mem off (htobe64 host x)
    storeBig64 host mem (off + 8) xs

/-- `_hash256_d64_transform`, sha2.c 39-378.  `out` is the memory at `out`, `inp` that at `in`. -/
def d64Transform (host : Host) (out inp : List Byte) : Res (List Byte) := do
  -- Transform 1 (40-164)
  let (R, W) ← exec macros32 (readBig32 host inp) d64Prog1 iv256 noW
  -- a += 0x6a09e667ul … ; t0 = a … (167-176)
  let t := List.zipWith (· + ·) R iv256
  -- Transform 2 (178-242)
  let (R, W) ← exec macros32 (readBig32 host inp) d64Prog2 t W
  -- w0 = t0 + a … w7 = t7 + h (244-251)
  let W := (List.zipWith (fun x y => some (x + y)) t R) ++ W.drop 8
  -- Transform 3 (253-368)
  let (R, _) ← exec macros32 (readBig32 host inp) d64Prog3 iv256 W
  -- result[i] = htobe32(a + 0x6a09e667ul) … (370-377)
  storeBig32 host out 0 (List.zipWith (· + ·) R iv256)

/-- `(uint64_t)(msg_len + append_size) << 3` with 64-bit `size_t`, sha2.c 675, 719. -/
def bitLength (msgLen append : Nat) : U64 := (BitVec.ofNat 64 (msgLen + append)) <<< 3

/-- `sha256_final`, sha2.c 671-694. -/
def sha256Final (host : Host) (digest : List U32) (msg : List Byte) (msgLen append : Nat) :
    Res (List U32) :=
  finish (sha256Transform host) 64 55 (bytes64 host (htobe64 host (bitLength msgLen append)))
    digest msg msgLen

/-- `fingera_sha2_256`, sha2.c 696-713.  Returns the memory at `hash`. -/
def sha2_256 (host : Host) (msg : List Byte) (msgLen : Nat) (hash : List Byte) :
    Res (List Byte) := do
  let digest ← sha256Final host iv256 msg msgLen 0
  storeBig32 host hash 0 digest

/-- `sha512_final`, sha2.c 715-738. -/
def sha512Final (host : Host) (digest : List U64) (msg : List Byte) (msgLen append : Nat) :
    Res (List U64) :=
  finish (sha512Transform host) 128 111 (bytes64 host (htobe64 host (bitLength msgLen append)))
    digest msg msgLen

/-- `fingera_sha2_512`, sha2.c 740-758.  The C code stores word 1 before word 0; the order of the
stores does not matter and the model stores in ascending order. -/
def sha2_512 (host : Host) (msg : List Byte) (msgLen : Nat) (hash : List Byte) :
    Res (List Byte) := do
  let digest ← sha512Final host iv512 msg msgLen 0
  storeBig64 host hash 0 digest

/-- `key_inner[i] = buffer[i] ^ pad` for the `n` 64-bit words of the buffer, sha2.c 782-785, 829-832
(on the bytes of the arrays). -/
def xorWords (host : Host) (pad : U64) (buffer : List Byte) (n : Nat) : Res (List Byte) :=
  forLoop (fun i out => do
    let x ← load64 host buffer (8 * i)
    store64 host out (8 * i) (x ^^^ pad)) 0 n (List.replicate (8 * n) 0xAA#8)

/-- Filling of `buffer` in `fingera_hmac_sha256`, sha2.c 775-781. -/
def hmacBuffer256 (host : Host) (key : List Byte) (keyLen : Nat) : Res (List Byte) :=
  if keyLen ≤ 64 then do
    let buffer ← memcpy (List.replicate 64 0xAA#8) 0 key keyLen
    memset buffer keyLen 0#8 (64 - keyLen)
  else do
    let buffer ← sha2_256 host key keyLen (List.replicate 64 0xAA#8)
    memset buffer 32 0#8 32

/-- `fingera_hmac_sha256`, sha2.c 760-803. -/
def hmac_sha256 (host : Host) (key : List Byte) (keyLen : Nat) (msg : List Byte) (msgLen : Nat)
    (hmac : List Byte) : Res (List Byte) := do
  let buffer ← hmacBuffer256 host key keyLen
  let keyInner ← xorWords host 0x3636363636363636#64 buffer 8
  let keyOutter ← xorWords host 0x5C5C5C5C5C5C5C5C#64 buffer 8
  let inner ← sha256Transform host iv256 keyInner
  let inner ← sha256Final host inner msg msgLen 64
  let innerBytes := (inner.map (htobe32 host)).flatMap (bytes32 host)
  let outter ← sha256Transform host iv256 keyOutter
  let outter ← sha256Final host outter innerBytes 32 64
  storeBig32 host hmac 0 outter

/-- Filling of `buffer` in `fingera_hmac_sha512`, sha2.c 822-828. -/
def hmacBuffer512 (host : Host) (key : List Byte) (keyLen : Nat) : Res (List Byte) :=
  if keyLen ≤ 128 then do
    let buffer ← memcpy (List.replicate 128 0xAA#8) 0 key keyLen
    memset buffer keyLen 0#8 (128 - keyLen)
  else do
    let buffer ← sha2_512 host key keyLen (List.replicate 128 0xAA#8)
    memset buffer 64 0#8 64

/-- `fingera_hmac_sha512`, sha2.c 805-849. -/
def hmac_sha512 (host : Host) (key : List Byte) (keyLen : Nat) (msg : List Byte) (msgLen : Nat)
    (hmac : List Byte) : Res (List Byte) := do
  let buffer ← hmacBuffer512 host key keyLen
  let keyInner ← xorWords host 0x3636363636363636#64 buffer 16
  let keyOutter ← xorWords host 0x5C5C5C5C5C5C5C5C#64 buffer 16
  let inner ← sha512Transform host iv512 keyInner
  let inner ← sha512Final host inner msg msgLen 128
  let innerBytes := (inner.map (htobe64 host)).flatMap (bytes64 host)
  let outter ← sha512Transform host iv512 keyOutter
  let outter ← sha512Final host outter innerBytes 64 128
  storeBig64 host hmac 0 outter

end Sha2
