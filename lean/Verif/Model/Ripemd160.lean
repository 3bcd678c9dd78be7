import Verif.Model.HashCommon
import Verif.Model.Ripemd160Prog

/-! `src/hash/ripemd160.c`. -/
namespace Ripemd160
open Endian HashCommon

/-- `ROL`, ripemd160.c 11. -/
def rol (x : U32) (n : Nat) : U32 := (x <<< n) ||| (x >>> (32 - n))
/-- `F`, ripemd160.c 14. -/
def F (x y z : U32) : U32 := x ^^^ y ^^^ z
/-- `G`, ripemd160.c 15. -/
def G (x y z : U32) : U32 := (x &&& y) ||| (~~~x &&& z)
/-- `H`, ripemd160.c 16. -/
def H (x y z : U32) : U32 := (x ||| ~~~y) ^^^ z
/-- `I`, ripemd160.c 17. -/
def I (x y z : U32) : U32 := (x &&& z) ||| (y &&& ~~~z)
/-- `J`, ripemd160.c 18. -/
def J (x y z : U32) : U32 := x ^^^ (y ||| ~~~z)

/-- The sum added to `a` by the step macros, ripemd160.c 21-80.  (The constants have type `unsigned
long`; the sum is reduced to 32 bits when it is added to the `uint32_t`, so 32-bit addition gives the
same value.) -/
def summand : Mac → U32 → U32 → U32 → U32 → U32
  | .FF, b, c, d, x => F b c d + x
  | .GG, b, c, d, x => G b c d + x + 0x5a827999#32
  | .HH, b, c, d, x => H b c d + x + 0x6ed9eba1#32
  | .II, b, c, d, x => I b c d + x + 0x8f1bbcdc#32
  | .JJ, b, c, d, x => J b c d + x + 0xa953fd4e#32
  | .FFF, b, c, d, x => F b c d + x
  | .GGG, b, c, d, x => G b c d + x + 0x7a6d76e9#32
  | .HHH, b, c, d, x => H b c d + x + 0x6d703ef3#32
  | .III, b, c, d, x => I b c d + x + 0x5c4dd124#32
  | .JJJ, b, c, d, x => J b c d + x + 0x50a28be6#32

/-- A step macro, ripemd160.c 21-80: `a += …; a = ROL(a, s) + e; c = ROL(c, 10);`. -/
def execStep (X : List U32) (p : Step) (R : List U32) : List U32 :=
  let v := fun (R : List U32) j => R.getD (p.regs.getD j 0) 0#32
  let R := R.set (p.regs.getD 0 0) (v R 0 + summand p.mac (v R 1) (v R 2) (v R 3) (X.getD p.x 0#32))
  let R := R.set (p.regs.getD 0 0) (rol (v R 0) p.s + v R 4)
  R.set (p.regs.getD 2 0) (rol (v R 2) 10)

/-- A sequence of steps. -/
def exec (X : List U32) : List Step → List U32 → List U32
  | [], R => R
  | p :: ps, R => exec X ps (execStep X p R)

/-- `X_i = le32(chunk, i * 4)` for `i = i0, …, i0 + n - 1`, ripemd160.c 88-95. -/
def loadX (host : Host) (chunk : List Byte) (i0 : Nat) : Nat → Res (List U32)
  | 0 => .ok []
  | n+1 => do
    let x ← readLittle32 host chunk (i0 * 4)
    let xs ← loadX host chunk (i0 + 1) n
    pure (x :: xs)

/-- `ripemd160_transform`, ripemd160.c 84-284. -/
def transform (host : Host) (s : List U32) (chunk : List Byte) : Res (List U32) := do
  let X ← loadX host chunk 0 16
  let L := exec X progL s
  let R := exec X progR s
  let l := fun i => L.getD i 0#32
  let r := fun i => R.getD i 0#32
  -- combine results (277-283)
  let ddd := r 3 + (l 2 + s.getD 1 0#32)
  let s := s.set 1 (s.getD 2 0#32 + l 3 + r 4)
  let s := s.set 2 (s.getD 3 0#32 + l 4 + r 0)
  let s := s.set 3 (s.getD 4 0#32 + l 0 + r 1)
  let s := s.set 4 (s.getD 0 0#32 + l 1 + r 2)
  let s := s.set 0 ddd
  pure s

/-- Initial digest, ripemd160.c 288-289. -/
def iv : List U32 := [0x67452301, 0xEFCDAB89, 0x98BADCFE, 0x10325476, 0xC3D2E1F0]

/-- `out[i] = htole32(digest[i])`, ripemd160.c 310-314. -/
def storeLittle32 (host : Host) (mem : List Byte) (off : Nat) : List U32 → Res (List Byte)
  | [] => .ok mem
  | x :: xs => do
    let mem ← store32 host mem off (htole32 host x)
    storeLittle32 host mem (off + 4) xs

/-- `fingera_ripemd160`, ripemd160.c 286-317.  (The cleansing of the locals is left out.) -/
def ripemd160 (host : Host) (msg : List Byte) (msgLen : Nat) (hash : List Byte) :
    Res (List Byte) := do
  let chunkEnd := htole64 host ((BitVec.ofNat 64 msgLen) <<< 3)
  let digest ← finish (transform host) 64 55 (bytes64 host chunkEnd) iv msg msgLen
  storeLittle32 host hash 0 digest

end Ripemd160
