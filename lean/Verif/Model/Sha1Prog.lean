import Verif.Model.Basic
/-!
The unrolled rounds of `src/hash/sha1.c` as data.  Generated by `tools/sha1_gen.py` from the C text:
registers `a…e` are the numbers 0…4, `w0…w15` the numbers 0…15, `k1…k4` are replaced by their values
(sha1.c 27-30).  What an entry does is defined by the interpreter in `Verif.Model.Sha1`.
-/
namespace Sha1

/-- Name of the boolean-function macro. -/
inductive Fn where
  | F1 | F2 | F3
deriving DecidableEq, Repr

/-- The message argument of a round: `w_i = be32(chunk, off)`, or `left(w_p ^ w_q ^ w_r ^ w_s)`,
possibly assigned to a `w_i`. -/
inductive Op where
  | load (i off : Nat)
  | mix (dst : Option Nat) (p q r s : Nat)
deriving DecidableEq, Repr

/-- `ROUND(regs…, fn(args…), k, op)`. -/
structure Round where
  regs : List Nat
  fn : Fn
  args : List Nat
  k : Nat
  op : Op
deriving DecidableEq, Repr

/-- The rounds of `sha1_transform` (sha1.c 32-111), in order. -/
def prog : List Round := [
  ⟨[0, 1, 2, 3, 4], .F1, [1, 2, 3], 0x5A827999, .load 0 0⟩,
  ⟨[4, 0, 1, 2, 3], .F1, [0, 1, 2], 0x5A827999, .load 1 4⟩,
  ⟨[3, 4, 0, 1, 2], .F1, [4, 0, 1], 0x5A827999, .load 2 8⟩,
  ⟨[2, 3, 4, 0, 1], .F1, [3, 4, 0], 0x5A827999, .load 3 12⟩,
  ⟨[1, 2, 3, 4, 0], .F1, [2, 3, 4], 0x5A827999, .load 4 16⟩,
  ⟨[0, 1, 2, 3, 4], .F1, [1, 2, 3], 0x5A827999, .load 5 20⟩,
  ⟨[4, 0, 1, 2, 3], .F1, [0, 1, 2], 0x5A827999, .load 6 24⟩,
  ⟨[3, 4, 0, 1, 2], .F1, [4, 0, 1], 0x5A827999, .load 7 28⟩,
  ⟨[2, 3, 4, 0, 1], .F1, [3, 4, 0], 0x5A827999, .load 8 32⟩,
  ⟨[1, 2, 3, 4, 0], .F1, [2, 3, 4], 0x5A827999, .load 9 36⟩,
  ⟨[0, 1, 2, 3, 4], .F1, [1, 2, 3], 0x5A827999, .load 10 40⟩,
  ⟨[4, 0, 1, 2, 3], .F1, [0, 1, 2], 0x5A827999, .load 11 44⟩,
  ⟨[3, 4, 0, 1, 2], .F1, [4, 0, 1], 0x5A827999, .load 12 48⟩,
  ⟨[2, 3, 4, 0, 1], .F1, [3, 4, 0], 0x5A827999, .load 13 52⟩,
  ⟨[1, 2, 3, 4, 0], .F1, [2, 3, 4], 0x5A827999, .load 14 56⟩,
  ⟨[0, 1, 2, 3, 4], .F1, [1, 2, 3], 0x5A827999, .load 15 60⟩,
  ⟨[4, 0, 1, 2, 3], .F1, [0, 1, 2], 0x5A827999, .mix (some 0) 0 13 8 2⟩,
  ⟨[3, 4, 0, 1, 2], .F1, [4, 0, 1], 0x5A827999, .mix (some 1) 1 14 9 3⟩,
  ⟨[2, 3, 4, 0, 1], .F1, [3, 4, 0], 0x5A827999, .mix (some 2) 2 15 10 4⟩,
  ⟨[1, 2, 3, 4, 0], .F1, [2, 3, 4], 0x5A827999, .mix (some 3) 3 0 11 5⟩,
  ⟨[0, 1, 2, 3, 4], .F2, [1, 2, 3], 0x6ED9EBA1, .mix (some 4) 4 1 12 6⟩,
  ⟨[4, 0, 1, 2, 3], .F2, [0, 1, 2], 0x6ED9EBA1, .mix (some 5) 5 2 13 7⟩,
  ⟨[3, 4, 0, 1, 2], .F2, [4, 0, 1], 0x6ED9EBA1, .mix (some 6) 6 3 14 8⟩,
  ⟨[2, 3, 4, 0, 1], .F2, [3, 4, 0], 0x6ED9EBA1, .mix (some 7) 7 4 15 9⟩,
  ⟨[1, 2, 3, 4, 0], .F2, [2, 3, 4], 0x6ED9EBA1, .mix (some 8) 8 5 0 10⟩,
  ⟨[0, 1, 2, 3, 4], .F2, [1, 2, 3], 0x6ED9EBA1, .mix (some 9) 9 6 1 11⟩,
  ⟨[4, 0, 1, 2, 3], .F2, [0, 1, 2], 0x6ED9EBA1, .mix (some 10) 10 7 2 12⟩,
  ⟨[3, 4, 0, 1, 2], .F2, [4, 0, 1], 0x6ED9EBA1, .mix (some 11) 11 8 3 13⟩,
  ⟨[2, 3, 4, 0, 1], .F2, [3, 4, 0], 0x6ED9EBA1, .mix (some 12) 12 9 4 14⟩,
  ⟨[1, 2, 3, 4, 0], .F2, [2, 3, 4], 0x6ED9EBA1, .mix (some 13) 13 10 5 15⟩,
  ⟨[0, 1, 2, 3, 4], .F2, [1, 2, 3], 0x6ED9EBA1, .mix (some 14) 14 11 6 0⟩,
  ⟨[4, 0, 1, 2, 3], .F2, [0, 1, 2], 0x6ED9EBA1, .mix (some 15) 15 12 7 1⟩,
  ⟨[3, 4, 0, 1, 2], .F2, [4, 0, 1], 0x6ED9EBA1, .mix (some 0) 0 13 8 2⟩,
  ⟨[2, 3, 4, 0, 1], .F2, [3, 4, 0], 0x6ED9EBA1, .mix (some 1) 1 14 9 3⟩,
  ⟨[1, 2, 3, 4, 0], .F2, [2, 3, 4], 0x6ED9EBA1, .mix (some 2) 2 15 10 4⟩,
  ⟨[0, 1, 2, 3, 4], .F2, [1, 2, 3], 0x6ED9EBA1, .mix (some 3) 3 0 11 5⟩,
  ⟨[4, 0, 1, 2, 3], .F2, [0, 1, 2], 0x6ED9EBA1, .mix (some 4) 4 1 12 6⟩,
  ⟨[3, 4, 0, 1, 2], .F2, [4, 0, 1], 0x6ED9EBA1, .mix (some 5) 5 2 13 7⟩,
  ⟨[2, 3, 4, 0, 1], .F2, [3, 4, 0], 0x6ED9EBA1, .mix (some 6) 6 3 14 8⟩,
  ⟨[1, 2, 3, 4, 0], .F2, [2, 3, 4], 0x6ED9EBA1, .mix (some 7) 7 4 15 9⟩,
  ⟨[0, 1, 2, 3, 4], .F3, [1, 2, 3], 0x8F1BBCDC, .mix (some 8) 8 5 0 10⟩,
  ⟨[4, 0, 1, 2, 3], .F3, [0, 1, 2], 0x8F1BBCDC, .mix (some 9) 9 6 1 11⟩,
  ⟨[3, 4, 0, 1, 2], .F3, [4, 0, 1], 0x8F1BBCDC, .mix (some 10) 10 7 2 12⟩,
  ⟨[2, 3, 4, 0, 1], .F3, [3, 4, 0], 0x8F1BBCDC, .mix (some 11) 11 8 3 13⟩,
  ⟨[1, 2, 3, 4, 0], .F3, [2, 3, 4], 0x8F1BBCDC, .mix (some 12) 12 9 4 14⟩,
  ⟨[0, 1, 2, 3, 4], .F3, [1, 2, 3], 0x8F1BBCDC, .mix (some 13) 13 10 5 15⟩,
  ⟨[4, 0, 1, 2, 3], .F3, [0, 1, 2], 0x8F1BBCDC, .mix (some 14) 14 11 6 0⟩,
  ⟨[3, 4, 0, 1, 2], .F3, [4, 0, 1], 0x8F1BBCDC, .mix (some 15) 15 12 7 1⟩,
  ⟨[2, 3, 4, 0, 1], .F3, [3, 4, 0], 0x8F1BBCDC, .mix (some 0) 0 13 8 2⟩,
  ⟨[1, 2, 3, 4, 0], .F3, [2, 3, 4], 0x8F1BBCDC, .mix (some 1) 1 14 9 3⟩,
  ⟨[0, 1, 2, 3, 4], .F3, [1, 2, 3], 0x8F1BBCDC, .mix (some 2) 2 15 10 4⟩,
  ⟨[4, 0, 1, 2, 3], .F3, [0, 1, 2], 0x8F1BBCDC, .mix (some 3) 3 0 11 5⟩,
  ⟨[3, 4, 0, 1, 2], .F3, [4, 0, 1], 0x8F1BBCDC, .mix (some 4) 4 1 12 6⟩,
  ⟨[2, 3, 4, 0, 1], .F3, [3, 4, 0], 0x8F1BBCDC, .mix (some 5) 5 2 13 7⟩,
  ⟨[1, 2, 3, 4, 0], .F3, [2, 3, 4], 0x8F1BBCDC, .mix (some 6) 6 3 14 8⟩,
  ⟨[0, 1, 2, 3, 4], .F3, [1, 2, 3], 0x8F1BBCDC, .mix (some 7) 7 4 15 9⟩,
  ⟨[4, 0, 1, 2, 3], .F3, [0, 1, 2], 0x8F1BBCDC, .mix (some 8) 8 5 0 10⟩,
  ⟨[3, 4, 0, 1, 2], .F3, [4, 0, 1], 0x8F1BBCDC, .mix (some 9) 9 6 1 11⟩,
  ⟨[2, 3, 4, 0, 1], .F3, [3, 4, 0], 0x8F1BBCDC, .mix (some 10) 10 7 2 12⟩,
  ⟨[1, 2, 3, 4, 0], .F3, [2, 3, 4], 0x8F1BBCDC, .mix (some 11) 11 8 3 13⟩,
  ⟨[0, 1, 2, 3, 4], .F2, [1, 2, 3], 0xCA62C1D6, .mix (some 12) 12 9 4 14⟩,
  ⟨[4, 0, 1, 2, 3], .F2, [0, 1, 2], 0xCA62C1D6, .mix (some 13) 13 10 5 15⟩,
  ⟨[3, 4, 0, 1, 2], .F2, [4, 0, 1], 0xCA62C1D6, .mix (some 14) 14 11 6 0⟩,
  ⟨[2, 3, 4, 0, 1], .F2, [3, 4, 0], 0xCA62C1D6, .mix (some 15) 15 12 7 1⟩,
  ⟨[1, 2, 3, 4, 0], .F2, [2, 3, 4], 0xCA62C1D6, .mix (some 0) 0 13 8 2⟩,
  ⟨[0, 1, 2, 3, 4], .F2, [1, 2, 3], 0xCA62C1D6, .mix (some 1) 1 14 9 3⟩,
  ⟨[4, 0, 1, 2, 3], .F2, [0, 1, 2], 0xCA62C1D6, .mix (some 2) 2 15 10 4⟩,
  ⟨[3, 4, 0, 1, 2], .F2, [4, 0, 1], 0xCA62C1D6, .mix (some 3) 3 0 11 5⟩,
  ⟨[2, 3, 4, 0, 1], .F2, [3, 4, 0], 0xCA62C1D6, .mix (some 4) 4 1 12 6⟩,
  ⟨[1, 2, 3, 4, 0], .F2, [2, 3, 4], 0xCA62C1D6, .mix (some 5) 5 2 13 7⟩,
  ⟨[0, 1, 2, 3, 4], .F2, [1, 2, 3], 0xCA62C1D6, .mix (some 6) 6 3 14 8⟩,
  ⟨[4, 0, 1, 2, 3], .F2, [0, 1, 2], 0xCA62C1D6, .mix (some 7) 7 4 15 9⟩,
  ⟨[3, 4, 0, 1, 2], .F2, [4, 0, 1], 0xCA62C1D6, .mix (some 8) 8 5 0 10⟩,
  ⟨[2, 3, 4, 0, 1], .F2, [3, 4, 0], 0xCA62C1D6, .mix (some 9) 9 6 1 11⟩,
  ⟨[1, 2, 3, 4, 0], .F2, [2, 3, 4], 0xCA62C1D6, .mix (some 10) 10 7 2 12⟩,
  ⟨[0, 1, 2, 3, 4], .F2, [1, 2, 3], 0xCA62C1D6, .mix (some 11) 11 8 3 13⟩,
  ⟨[4, 0, 1, 2, 3], .F2, [0, 1, 2], 0xCA62C1D6, .mix (some 12) 12 9 4 14⟩,
  ⟨[3, 4, 0, 1, 2], .F2, [4, 0, 1], 0xCA62C1D6, .mix none 13 10 5 15⟩,
  ⟨[2, 3, 4, 0, 1], .F2, [3, 4, 0], 0xCA62C1D6, .mix none 14 11 6 0⟩,
  ⟨[1, 2, 3, 4, 0], .F2, [2, 3, 4], 0xCA62C1D6, .mix none 15 12 7 1⟩]

end Sha1
