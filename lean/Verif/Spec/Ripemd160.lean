import Verif.Spec.Words

/-!
RIPEMD-160 as published by Dobbertin, Bosselaers and Preneel ("RIPEMD-160: A Strengthened Version of
RIPEMD", appendix A), for byte-oriented messages.
-/
namespace RipemdSpec
open WordSpec

abbrev W32 := BitVec 32

/-- Nonlinear function of step `j`. -/
def f (j : Nat) (x y z : W32) : W32 :=
  if j < 16 then x ^^^ y ^^^ z
  else if j < 32 then (x &&& y) ||| (~~~x &&& z)
  else if j < 48 then (x ||| ~~~y) ^^^ z
  else if j < 64 then (x &&& z) ||| (y &&& ~~~z)
  else x ^^^ (y ||| ~~~z)

/-- Added constants: integer parts of `2^30` times the square (left line) and cube (right line) roots
of 2, 3, 5, 7. -/
def rootConst (r p : Nat) : W32 := BitVec.ofNat 32 (iroot r (p * 2^(30*r)) 33 0)
def K (j : Nat) : W32 :=
  if j < 16 then 0#32 else if j < 32 then rootConst 2 2 else if j < 48 then rootConst 2 3
  else if j < 64 then rootConst 2 5 else rootConst 2 7
def K' (j : Nat) : W32 :=
  if j < 16 then rootConst 3 2 else if j < 32 then rootConst 3 3 else if j < 48 then rootConst 3 5
  else if j < 64 then rootConst 3 7 else 0#32

/-- The permutation `ρ`. -/
def rho (i : Nat) : Nat := [7, 4, 13, 1, 10, 6, 15, 3, 12, 0, 9, 5, 2, 14, 11, 8].getD i 0
/-- The permutation `π(i) = 9i + 5 (mod 16)`. -/
def pi (i : Nat) : Nat := (9 * i + 5) % 16

def iter (f : Nat → Nat) : Nat → Nat → Nat
  | 0, x => x
  | n+1, x => iter f n (f x)

/-- Selection of message word: rounds use `id, ρ, ρ², ρ³, ρ⁴` on the left and `π, ρπ, ρ²π, ρ³π, ρ⁴π`
on the right. -/
def r (j : Nat) : Nat := iter rho (j / 16) (j % 16)
def r' (j : Nat) : Nat := iter rho (j / 16) (pi (j % 16))

/-- Amount for rotate left, by round and message word (table "Shifts" of the paper). -/
def shift (round word : Nat) : Nat :=
  ([[11, 14, 15, 12, 5, 8, 7, 9, 11, 13, 14, 15, 6, 7, 9, 8],
    [12, 13, 11, 15, 6, 9, 9, 7, 12, 15, 11, 13, 7, 8, 7, 7],
    [13, 15, 14, 11, 7, 7, 6, 8, 13, 14, 13, 12, 5, 5, 6, 9],
    [14, 11, 12, 14, 8, 6, 5, 5, 15, 12, 15, 14, 9, 9, 8, 6],
    [15, 12, 13, 13, 9, 5, 8, 6, 14, 11, 12, 11, 8, 6, 5, 5]].getD round []).getD word 0
def s (j : Nat) : Nat := shift (j / 16) (r j)
def s' (j : Nat) : Nat := shift (j / 16) (r' j)

/-- Initial value. -/
def H0 : List W32 := [0x67452301#32, 0xefcdab89#32, 0x98badcfe#32, 0x10325476#32, 0xc3d2e1f0#32]

/-- Chaining variables of one line. -/
structure Vars where
  (a b c d e : W32)

/-- A step: `T := rol_s(A + f(B,C,D) + X + K) + E; A := E; E := D; D := rol_10(C); C := B; B := T`. -/
def step (v : Vars) (fv : W32 → W32 → W32 → W32) (k x : W32) (s : Nat) : Vars :=
  ⟨v.e, rotl s (v.a + fv v.b v.c v.d + x + k) + v.e, v.b, rotl 10 v.c, v.d⟩

/-- The left line, steps `j, j+1, …` (`n` of them). -/
def lineL (X : List W32) : Nat → Nat → Vars → Vars
  | 0, _, v => v
  | n+1, j, v => lineL X n (j+1) (step v (f j) (K j) (X.getD (r j) 0#32) (s j))

/-- The right line: functions in reverse order. -/
def lineR (X : List W32) : Nat → Nat → Vars → Vars
  | 0, _, v => v
  | n+1, j, v => lineR X n (j+1) (step v (f (79 - j)) (K' j) (X.getD (r' j) 0#32) (s' j))

/-- The chaining value after one more block. -/
def compress (H X : List W32) : List W32 :=
  let h := fun i => H.getD i 0#32
  let v := lineL X 80 0 ⟨h 0, h 1, h 2, h 3, h 4⟩
  let v' := lineR X 80 0 ⟨h 0, h 1, h 2, h 3, h 4⟩
  [h 1 + v.c + v'.d, h 2 + v.d + v'.e, h 3 + v.e + v'.a, h 4 + v.a + v'.b, h 0 + v.b + v'.c]

/-- Padding as in MD4: a byte `80`, zero bytes, and the number of bits in eight bytes, least
significant first. -/
def pad (msg : List (BitVec 8)) : List (BitVec 8) :=
  msg ++ [0x80#8] ++ List.replicate ((64 - (msg.length + 9) % 64) % 64) 0#8 ++
    leBytes 8 (8 * msg.length)

/-- A block as sixteen little-endian words. -/
def words (block : List (BitVec 8)) : List W32 :=
  (pieces 4 block).map fun p => BitVec.ofNat 32 (leNat p)

/-- RIPEMD-160 of a byte string. -/
def RIPEMD160 (msg : List (BitVec 8)) : List (BitVec 8) :=
  (((pieces 64 (pad msg)).map words).foldl compress H0).flatMap fun x => leBytes 4 x.toNat

end RipemdSpec
