import Verif.Spec.Words

/-!
SHA-256 and SHA-512 as published in FIPS 180-4 (byte-oriented messages).
-/
namespace Sha2Spec
open WordSpec

/-- What distinguishes SHA-256 from SHA-512: word size, rounds, the four sigma functions, the round
constants, the initial value, the size of the length field and of a block. -/
structure Variant (w : Nat) where
  S0 : BitVec w → BitVec w
  S1 : BitVec w → BitVec w
  s0 : BitVec w → BitVec w
  s1 : BitVec w → BitVec w
  rounds : Nat
  K : List (BitVec w)
  H0 : List (BitVec w)
  wordBytes : Nat
  blockBytes : Nat
  lengthBytes : Nat

/-- FIPS 180-4 (4.2), (4.8). -/
def Ch {w : Nat} (x y z : BitVec w) : BitVec w := (x &&& y) ^^^ (~~~x &&& z)
/-- FIPS 180-4 (4.3), (4.9). -/
def Maj {w : Nat} (x y z : BitVec w) : BitVec w := (x &&& y) ^^^ (x &&& z) ^^^ (y &&& z)

/-- The first eighty prime numbers. -/
def primes : List Nat :=
  [2, 3, 5, 7, 11, 13, 17, 19, 23, 29, 31, 37, 41, 43, 47, 53, 59, 61, 67, 71, 73, 79, 83, 89, 97,
   101, 103, 107, 109, 113, 127, 131, 137, 139, 149, 151, 157, 163, 167, 173, 179, 181, 191, 193,
   197, 199, 211, 223, 227, 229, 233, 239, 241, 251, 257, 263, 269, 271, 277, 281, 283, 293, 307,
   311, 313, 317, 331, 337, 347, 349, 353, 359, 367, 373, 379, 383, 389, 397, 401, 409]

/-- FIPS 180-4 4.1.2, 4.2.2, 5.3.3: the constants are fractional parts of cube and square roots. -/
def sha256 : Variant 32 where
  S0 x := rotr 2 x ^^^ rotr 13 x ^^^ rotr 22 x
  S1 x := rotr 6 x ^^^ rotr 11 x ^^^ rotr 25 x
  s0 x := rotr 7 x ^^^ rotr 18 x ^^^ (x >>> 3)
  s1 x := rotr 17 x ^^^ rotr 19 x ^^^ (x >>> 10)
  rounds := 64
  K := (primes.take 64).map fun p => BitVec.ofNat 32 (fracRoot 3 32 p)
  H0 := (primes.take 8).map fun p => BitVec.ofNat 32 (fracRoot 2 32 p)
  wordBytes := 4
  blockBytes := 64
  lengthBytes := 8

/-- FIPS 180-4 4.1.3, 4.2.3, 5.3.5. -/
def sha512 : Variant 64 where
  S0 x := rotr 28 x ^^^ rotr 34 x ^^^ rotr 39 x
  S1 x := rotr 14 x ^^^ rotr 18 x ^^^ rotr 41 x
  s0 x := rotr 1 x ^^^ rotr 8 x ^^^ (x >>> 7)
  s1 x := rotr 19 x ^^^ rotr 61 x ^^^ (x >>> 6)
  rounds := 80
  K := (primes.take 80).map fun p => BitVec.ofNat 64 (fracRoot 3 64 p)
  H0 := (primes.take 8).map fun p => BitVec.ofNat 64 (fracRoot 2 64 p)
  wordBytes := 8
  blockBytes := 128
  lengthBytes := 16

variable {w : Nat} (v : Variant w)

/-- One more word of the message schedule: with `t = ws.length`,
`W_t = σ1(W_{t-2}) + W_{t-7} + σ0(W_{t-15}) + W_{t-16}` (6.2.2 step 1). -/
def extend (ws : List (BitVec w)) : List (BitVec w) :=
  let t := ws.length
  ws ++ [v.s1 (ws.getD (t-2) 0#w) + ws.getD (t-7) 0#w + v.s0 (ws.getD (t-15) 0#w) + ws.getD (t-16) 0#w]

/-- `extend` applied `n` times. -/
def extendN : Nat → List (BitVec w) → List (BitVec w)
  | 0, ws => ws
  | n+1, ws => extendN n (extend v ws)

/-- The whole message schedule of a block of 16 words. -/
def schedule (m : List (BitVec w)) : List (BitVec w) := extendN v (v.rounds - 16) m

/-- The working variables `a … h`. -/
structure Vars (w : Nat) where
  (a b c d e f g h : BitVec w)

/-- 6.2.2 step 3 for one `t`, given `K_t` and `W_t`. -/
def round (s : Vars w) (k wt : BitVec w) : Vars w :=
  let T1 := s.h + v.S1 s.e + Ch s.e s.f s.g + k + wt
  let T2 := v.S0 s.a + Maj s.a s.b s.c
  ⟨T1 + T2, s.a, s.b, s.c, s.d + T1, s.e, s.f, s.g⟩

/-- 6.2.2 step 3 for the rounds `t, t+1, …` with the given pairs `(K_t, W_t)`. -/
def rounds (s : Vars w) : List (BitVec w × BitVec w) → Vars w
  | [] => s
  | (k, wt) :: r => rounds (round v s k wt) r

/-- 6.2.2 steps 2-4: the hash value after one more block (`H` has eight words). -/
def compress (H : List (BitVec w)) (m : List (BitVec w)) : List (BitVec w) :=
  let s := rounds v ⟨H.getD 0 0#w, H.getD 1 0#w, H.getD 2 0#w, H.getD 3 0#w, H.getD 4 0#w, H.getD 5 0#w,
    H.getD 6 0#w, H.getD 7 0#w⟩ (v.K.zip (schedule v m))
  [s.a + H.getD 0 0#w, s.b + H.getD 1 0#w, s.c + H.getD 2 0#w, s.d + H.getD 3 0#w, s.e + H.getD 4 0#w,
   s.f + H.getD 5 0#w, s.g + H.getD 6 0#w, s.h + H.getD 7 0#w]

/-- Number of zero bytes in the padding: the least `k` for which message, the byte `80`, `k` zero
bytes and the length field fill whole blocks (5.1). -/
def zeros (n : Nat) : Nat :=
  (v.blockBytes - (n + 1 + v.lengthBytes) % v.blockBytes) % v.blockBytes

/-- 5.1: padded message; the length field is the number of message bits, most significant first. -/
def pad (msg : List (BitVec 8)) : List (BitVec 8) :=
  msg ++ [0x80#8] ++ List.replicate (zeros v msg.length) 0#8 ++ beBytes v.lengthBytes (8 * msg.length)

/-- A block of bytes as big-endian words. -/
def words (block : List (BitVec 8)) : List (BitVec w) :=
  (pieces v.wordBytes block).map fun p => BitVec.ofNat w (beNat p)

/-- The hash computation over all blocks of the padded message. -/
def hashWords (msg : List (BitVec 8)) : List (BitVec w) :=
  ((pieces v.blockBytes (pad v msg)).map (words v)).foldl (compress v) v.H0

/-- The digest. -/
def hash (msg : List (BitVec 8)) : List (BitVec 8) :=
  (hashWords v msg).flatMap fun x => beBytes v.wordBytes x.toNat

/-- SHA-256 and SHA-512 of a byte string. -/
def SHA256 (msg : List (BitVec 8)) : List (BitVec 8) := hash sha256 msg
def SHA512 (msg : List (BitVec 8)) : List (BitVec 8) := hash sha512 msg

end Sha2Spec
