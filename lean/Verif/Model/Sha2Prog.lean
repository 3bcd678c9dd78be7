import Verif.Model.Basic
/-!
The unrolled rounds of `src/hash/sha2.c` as data.  Generated by `tools/sha2_gen.py` from the C text:
registers `a…h` are the numbers 0…7, `w0…w15` the numbers 0…15.  What an entry does is defined by
the interpreter in `Verif.Model.Sha2`.
-/
namespace Sha2

/-- A summand of a message-schedule expression: `be32(chunk, off)` / `be64`, `w_i`, `sigma0(w_i)`,
`sigma1(w_i)`, a constant. -/
inductive Term where
  | be (off : Nat)
  | w (i : Nat)
  | s0 (i : Nat)
  | s1 (i : Nat)
  | c (v : Nat)
deriving DecidableEq, Repr

/-- The message part of a round: nothing (the schedule word is folded into the constant), a sum that
is used only, `w_i = sum`, `w_i += sum`. -/
inductive WOp where
  | none
  | use (ts : List Term)
  | assign (i : Nat) (ts : List Term)
  | plus (i : Nat) (ts : List Term)
deriving DecidableEq, Repr

/-- `ROUND32(regs…, k + op)` or `ROUND64(regs…, k, op)`. -/
structure Round where
  regs : List Nat
  k : Nat
  op : WOp
deriving DecidableEq, Repr

/-- "Transform 1" of `_hash256_d64_transform` (sha2.c 40-177), one entry per round macro, in order. -/
def d64Prog1 : List Round := [
  ⟨[0, 1, 2, 3, 4, 5, 6, 7], 0x428a2f98, .assign 0 [.be 0]⟩,
  ⟨[7, 0, 1, 2, 3, 4, 5, 6], 0x71374491, .assign 1 [.be 4]⟩,
  ⟨[6, 7, 0, 1, 2, 3, 4, 5], 0xb5c0fbcf, .assign 2 [.be 8]⟩,
  ⟨[5, 6, 7, 0, 1, 2, 3, 4], 0xe9b5dba5, .assign 3 [.be 12]⟩,
  ⟨[4, 5, 6, 7, 0, 1, 2, 3], 0x3956c25b, .assign 4 [.be 16]⟩,
  ⟨[3, 4, 5, 6, 7, 0, 1, 2], 0x59f111f1, .assign 5 [.be 20]⟩,
  ⟨[2, 3, 4, 5, 6, 7, 0, 1], 0x923f82a4, .assign 6 [.be 24]⟩,
  ⟨[1, 2, 3, 4, 5, 6, 7, 0], 0xab1c5ed5, .assign 7 [.be 28]⟩,
  ⟨[0, 1, 2, 3, 4, 5, 6, 7], 0xd807aa98, .assign 8 [.be 32]⟩,
  ⟨[7, 0, 1, 2, 3, 4, 5, 6], 0x12835b01, .assign 9 [.be 36]⟩,
  ⟨[6, 7, 0, 1, 2, 3, 4, 5], 0x243185be, .assign 10 [.be 40]⟩,
  ⟨[5, 6, 7, 0, 1, 2, 3, 4], 0x550c7dc3, .assign 11 [.be 44]⟩,
  ⟨[4, 5, 6, 7, 0, 1, 2, 3], 0x72be5d74, .assign 12 [.be 48]⟩,
  ⟨[3, 4, 5, 6, 7, 0, 1, 2], 0x80deb1fe, .assign 13 [.be 52]⟩,
  ⟨[2, 3, 4, 5, 6, 7, 0, 1], 0x9bdc06a7, .assign 14 [.be 56]⟩,
  ⟨[1, 2, 3, 4, 5, 6, 7, 0], 0xc19bf174, .assign 15 [.be 60]⟩,
  ⟨[0, 1, 2, 3, 4, 5, 6, 7], 0xe49b69c1, .plus 0 [.s1 14, .w 9, .s0 1]⟩,
  ⟨[7, 0, 1, 2, 3, 4, 5, 6], 0xefbe4786, .plus 1 [.s1 15, .w 10, .s0 2]⟩,
  ⟨[6, 7, 0, 1, 2, 3, 4, 5], 0x0fc19dc6, .plus 2 [.s1 0, .w 11, .s0 3]⟩,
  ⟨[5, 6, 7, 0, 1, 2, 3, 4], 0x240ca1cc, .plus 3 [.s1 1, .w 12, .s0 4]⟩,
  ⟨[4, 5, 6, 7, 0, 1, 2, 3], 0x2de92c6f, .plus 4 [.s1 2, .w 13, .s0 5]⟩,
  ⟨[3, 4, 5, 6, 7, 0, 1, 2], 0x4a7484aa, .plus 5 [.s1 3, .w 14, .s0 6]⟩,
  ⟨[2, 3, 4, 5, 6, 7, 0, 1], 0x5cb0a9dc, .plus 6 [.s1 4, .w 15, .s0 7]⟩,
  ⟨[1, 2, 3, 4, 5, 6, 7, 0], 0x76f988da, .plus 7 [.s1 5, .w 0, .s0 8]⟩,
  ⟨[0, 1, 2, 3, 4, 5, 6, 7], 0x983e5152, .plus 8 [.s1 6, .w 1, .s0 9]⟩,
  ⟨[7, 0, 1, 2, 3, 4, 5, 6], 0xa831c66d, .plus 9 [.s1 7, .w 2, .s0 10]⟩,
  ⟨[6, 7, 0, 1, 2, 3, 4, 5], 0xb00327c8, .plus 10 [.s1 8, .w 3, .s0 11]⟩,
  ⟨[5, 6, 7, 0, 1, 2, 3, 4], 0xbf597fc7, .plus 11 [.s1 9, .w 4, .s0 12]⟩,
  ⟨[4, 5, 6, 7, 0, 1, 2, 3], 0xc6e00bf3, .plus 12 [.s1 10, .w 5, .s0 13]⟩,
  ⟨[3, 4, 5, 6, 7, 0, 1, 2], 0xd5a79147, .plus 13 [.s1 11, .w 6, .s0 14]⟩,
  ⟨[2, 3, 4, 5, 6, 7, 0, 1], 0x06ca6351, .plus 14 [.s1 12, .w 7, .s0 15]⟩,
  ⟨[1, 2, 3, 4, 5, 6, 7, 0], 0x14292967, .plus 15 [.s1 13, .w 8, .s0 0]⟩,
  ⟨[0, 1, 2, 3, 4, 5, 6, 7], 0x27b70a85, .plus 0 [.s1 14, .w 9, .s0 1]⟩,
  ⟨[7, 0, 1, 2, 3, 4, 5, 6], 0x2e1b2138, .plus 1 [.s1 15, .w 10, .s0 2]⟩,
  ⟨[6, 7, 0, 1, 2, 3, 4, 5], 0x4d2c6dfc, .plus 2 [.s1 0, .w 11, .s0 3]⟩,
  ⟨[5, 6, 7, 0, 1, 2, 3, 4], 0x53380d13, .plus 3 [.s1 1, .w 12, .s0 4]⟩,
  ⟨[4, 5, 6, 7, 0, 1, 2, 3], 0x650a7354, .plus 4 [.s1 2, .w 13, .s0 5]⟩,
  ⟨[3, 4, 5, 6, 7, 0, 1, 2], 0x766a0abb, .plus 5 [.s1 3, .w 14, .s0 6]⟩,
  ⟨[2, 3, 4, 5, 6, 7, 0, 1], 0x81c2c92e, .plus 6 [.s1 4, .w 15, .s0 7]⟩,
  ⟨[1, 2, 3, 4, 5, 6, 7, 0], 0x92722c85, .plus 7 [.s1 5, .w 0, .s0 8]⟩,
  ⟨[0, 1, 2, 3, 4, 5, 6, 7], 0xa2bfe8a1, .plus 8 [.s1 6, .w 1, .s0 9]⟩,
  ⟨[7, 0, 1, 2, 3, 4, 5, 6], 0xa81a664b, .plus 9 [.s1 7, .w 2, .s0 10]⟩,
  ⟨[6, 7, 0, 1, 2, 3, 4, 5], 0xc24b8b70, .plus 10 [.s1 8, .w 3, .s0 11]⟩,
  ⟨[5, 6, 7, 0, 1, 2, 3, 4], 0xc76c51a3, .plus 11 [.s1 9, .w 4, .s0 12]⟩,
  ⟨[4, 5, 6, 7, 0, 1, 2, 3], 0xd192e819, .plus 12 [.s1 10, .w 5, .s0 13]⟩,
  ⟨[3, 4, 5, 6, 7, 0, 1, 2], 0xd6990624, .plus 13 [.s1 11, .w 6, .s0 14]⟩,
  ⟨[2, 3, 4, 5, 6, 7, 0, 1], 0xf40e3585, .plus 14 [.s1 12, .w 7, .s0 15]⟩,
  ⟨[1, 2, 3, 4, 5, 6, 7, 0], 0x106aa070, .plus 15 [.s1 13, .w 8, .s0 0]⟩,
  ⟨[0, 1, 2, 3, 4, 5, 6, 7], 0x19a4c116, .plus 0 [.s1 14, .w 9, .s0 1]⟩,
  ⟨[7, 0, 1, 2, 3, 4, 5, 6], 0x1e376c08, .plus 1 [.s1 15, .w 10, .s0 2]⟩,
  ⟨[6, 7, 0, 1, 2, 3, 4, 5], 0x2748774c, .plus 2 [.s1 0, .w 11, .s0 3]⟩,
  ⟨[5, 6, 7, 0, 1, 2, 3, 4], 0x34b0bcb5, .plus 3 [.s1 1, .w 12, .s0 4]⟩,
  ⟨[4, 5, 6, 7, 0, 1, 2, 3], 0x391c0cb3, .plus 4 [.s1 2, .w 13, .s0 5]⟩,
  ⟨[3, 4, 5, 6, 7, 0, 1, 2], 0x4ed8aa4a, .plus 5 [.s1 3, .w 14, .s0 6]⟩,
  ⟨[2, 3, 4, 5, 6, 7, 0, 1], 0x5b9cca4f, .plus 6 [.s1 4, .w 15, .s0 7]⟩,
  ⟨[1, 2, 3, 4, 5, 6, 7, 0], 0x682e6ff3, .plus 7 [.s1 5, .w 0, .s0 8]⟩,
  ⟨[0, 1, 2, 3, 4, 5, 6, 7], 0x748f82ee, .plus 8 [.s1 6, .w 1, .s0 9]⟩,
  ⟨[7, 0, 1, 2, 3, 4, 5, 6], 0x78a5636f, .plus 9 [.s1 7, .w 2, .s0 10]⟩,
  ⟨[6, 7, 0, 1, 2, 3, 4, 5], 0x84c87814, .plus 10 [.s1 8, .w 3, .s0 11]⟩,
  ⟨[5, 6, 7, 0, 1, 2, 3, 4], 0x8cc70208, .plus 11 [.s1 9, .w 4, .s0 12]⟩,
  ⟨[4, 5, 6, 7, 0, 1, 2, 3], 0x90befffa, .plus 12 [.s1 10, .w 5, .s0 13]⟩,
  ⟨[3, 4, 5, 6, 7, 0, 1, 2], 0xa4506ceb, .plus 13 [.s1 11, .w 6, .s0 14]⟩,
  ⟨[2, 3, 4, 5, 6, 7, 0, 1], 0xbef9a3f7, .use [.w 14, .s1 12, .w 7, .s0 15]⟩,
  ⟨[1, 2, 3, 4, 5, 6, 7, 0], 0xc67178f2, .use [.w 15, .s1 13, .w 8, .s0 0]⟩]

/-- "Transform 2" of `_hash256_d64_transform` (sha2.c 178-252), one entry per round macro, in order. -/
def d64Prog2 : List Round := [
  ⟨[0, 1, 2, 3, 4, 5, 6, 7], 0xc28a2f98, .none⟩,
  ⟨[7, 0, 1, 2, 3, 4, 5, 6], 0x71374491, .none⟩,
  ⟨[6, 7, 0, 1, 2, 3, 4, 5], 0xb5c0fbcf, .none⟩,
  ⟨[5, 6, 7, 0, 1, 2, 3, 4], 0xe9b5dba5, .none⟩,
  ⟨[4, 5, 6, 7, 0, 1, 2, 3], 0x3956c25b, .none⟩,
  ⟨[3, 4, 5, 6, 7, 0, 1, 2], 0x59f111f1, .none⟩,
  ⟨[2, 3, 4, 5, 6, 7, 0, 1], 0x923f82a4, .none⟩,
  ⟨[1, 2, 3, 4, 5, 6, 7, 0], 0xab1c5ed5, .none⟩,
  ⟨[0, 1, 2, 3, 4, 5, 6, 7], 0xd807aa98, .none⟩,
  ⟨[7, 0, 1, 2, 3, 4, 5, 6], 0x12835b01, .none⟩,
  ⟨[6, 7, 0, 1, 2, 3, 4, 5], 0x243185be, .none⟩,
  ⟨[5, 6, 7, 0, 1, 2, 3, 4], 0x550c7dc3, .none⟩,
  ⟨[4, 5, 6, 7, 0, 1, 2, 3], 0x72be5d74, .none⟩,
  ⟨[3, 4, 5, 6, 7, 0, 1, 2], 0x80deb1fe, .none⟩,
  ⟨[2, 3, 4, 5, 6, 7, 0, 1], 0x9bdc06a7, .none⟩,
  ⟨[1, 2, 3, 4, 5, 6, 7, 0], 0xc19bf374, .none⟩,
  ⟨[0, 1, 2, 3, 4, 5, 6, 7], 0x649b69c1, .none⟩,
  ⟨[7, 0, 1, 2, 3, 4, 5, 6], 0xf0fe4786, .none⟩,
  ⟨[6, 7, 0, 1, 2, 3, 4, 5], 0x0fe1edc6, .none⟩,
  ⟨[5, 6, 7, 0, 1, 2, 3, 4], 0x240cf254, .none⟩,
  ⟨[4, 5, 6, 7, 0, 1, 2, 3], 0x4fe9346f, .none⟩,
  ⟨[3, 4, 5, 6, 7, 0, 1, 2], 0x6cc984be, .none⟩,
  ⟨[2, 3, 4, 5, 6, 7, 0, 1], 0x61b9411e, .none⟩,
  ⟨[1, 2, 3, 4, 5, 6, 7, 0], 0x16f988fa, .none⟩,
  ⟨[0, 1, 2, 3, 4, 5, 6, 7], 0xf2c65152, .none⟩,
  ⟨[7, 0, 1, 2, 3, 4, 5, 6], 0xa88e5a6d, .none⟩,
  ⟨[6, 7, 0, 1, 2, 3, 4, 5], 0xb019fc65, .none⟩,
  ⟨[5, 6, 7, 0, 1, 2, 3, 4], 0xb9d99ec7, .none⟩,
  ⟨[4, 5, 6, 7, 0, 1, 2, 3], 0x9a1231c3, .none⟩,
  ⟨[3, 4, 5, 6, 7, 0, 1, 2], 0xe70eeaa0, .none⟩,
  ⟨[2, 3, 4, 5, 6, 7, 0, 1], 0xfdb1232b, .none⟩,
  ⟨[1, 2, 3, 4, 5, 6, 7, 0], 0xc7353eb0, .none⟩,
  ⟨[0, 1, 2, 3, 4, 5, 6, 7], 0x3069bad5, .none⟩,
  ⟨[7, 0, 1, 2, 3, 4, 5, 6], 0xcb976d5f, .none⟩,
  ⟨[6, 7, 0, 1, 2, 3, 4, 5], 0x5a0f118f, .none⟩,
  ⟨[5, 6, 7, 0, 1, 2, 3, 4], 0xdc1eeefd, .none⟩,
  ⟨[4, 5, 6, 7, 0, 1, 2, 3], 0x0a35b689, .none⟩,
  ⟨[3, 4, 5, 6, 7, 0, 1, 2], 0xde0b7a04, .none⟩,
  ⟨[2, 3, 4, 5, 6, 7, 0, 1], 0x58f4ca9d, .none⟩,
  ⟨[1, 2, 3, 4, 5, 6, 7, 0], 0xe15d5b16, .none⟩,
  ⟨[0, 1, 2, 3, 4, 5, 6, 7], 0x007f3e86, .none⟩,
  ⟨[7, 0, 1, 2, 3, 4, 5, 6], 0x37088980, .none⟩,
  ⟨[6, 7, 0, 1, 2, 3, 4, 5], 0xa507ea32, .none⟩,
  ⟨[5, 6, 7, 0, 1, 2, 3, 4], 0x6fab9537, .none⟩,
  ⟨[4, 5, 6, 7, 0, 1, 2, 3], 0x17406110, .none⟩,
  ⟨[3, 4, 5, 6, 7, 0, 1, 2], 0x0d8cd6f1, .none⟩,
  ⟨[2, 3, 4, 5, 6, 7, 0, 1], 0xcdaa3b6d, .none⟩,
  ⟨[1, 2, 3, 4, 5, 6, 7, 0], 0xc0bbbe37, .none⟩,
  ⟨[0, 1, 2, 3, 4, 5, 6, 7], 0x83613bda, .none⟩,
  ⟨[7, 0, 1, 2, 3, 4, 5, 6], 0xdb48a363, .none⟩,
  ⟨[6, 7, 0, 1, 2, 3, 4, 5], 0x0b02e931, .none⟩,
  ⟨[5, 6, 7, 0, 1, 2, 3, 4], 0x6fd15ca7, .none⟩,
  ⟨[4, 5, 6, 7, 0, 1, 2, 3], 0x521afaca, .none⟩,
  ⟨[3, 4, 5, 6, 7, 0, 1, 2], 0x31338431, .none⟩,
  ⟨[2, 3, 4, 5, 6, 7, 0, 1], 0x6ed41a95, .none⟩,
  ⟨[1, 2, 3, 4, 5, 6, 7, 0], 0x6d437890, .none⟩,
  ⟨[0, 1, 2, 3, 4, 5, 6, 7], 0xc39c91f2, .none⟩,
  ⟨[7, 0, 1, 2, 3, 4, 5, 6], 0x9eccabbd, .none⟩,
  ⟨[6, 7, 0, 1, 2, 3, 4, 5], 0xb5c9a0e6, .none⟩,
  ⟨[5, 6, 7, 0, 1, 2, 3, 4], 0x532fb63c, .none⟩,
  ⟨[4, 5, 6, 7, 0, 1, 2, 3], 0xd2c741c6, .none⟩,
  ⟨[3, 4, 5, 6, 7, 0, 1, 2], 0x07237ea3, .none⟩,
  ⟨[2, 3, 4, 5, 6, 7, 0, 1], 0xa4954b68, .none⟩,
  ⟨[1, 2, 3, 4, 5, 6, 7, 0], 0x4c191d76, .none⟩]

/-- "Transform 3" of `_hash256_d64_transform` (sha2.c 253-379), one entry per round macro, in order. -/
def d64Prog3 : List Round := [
  ⟨[0, 1, 2, 3, 4, 5, 6, 7], 0x428a2f98, .use [.w 0]⟩,
  ⟨[7, 0, 1, 2, 3, 4, 5, 6], 0x71374491, .use [.w 1]⟩,
  ⟨[6, 7, 0, 1, 2, 3, 4, 5], 0xb5c0fbcf, .use [.w 2]⟩,
  ⟨[5, 6, 7, 0, 1, 2, 3, 4], 0xe9b5dba5, .use [.w 3]⟩,
  ⟨[4, 5, 6, 7, 0, 1, 2, 3], 0x3956c25b, .use [.w 4]⟩,
  ⟨[3, 4, 5, 6, 7, 0, 1, 2], 0x59f111f1, .use [.w 5]⟩,
  ⟨[2, 3, 4, 5, 6, 7, 0, 1], 0x923f82a4, .use [.w 6]⟩,
  ⟨[1, 2, 3, 4, 5, 6, 7, 0], 0xab1c5ed5, .use [.w 7]⟩,
  ⟨[0, 1, 2, 3, 4, 5, 6, 7], 0x5807aa98, .none⟩,
  ⟨[7, 0, 1, 2, 3, 4, 5, 6], 0x12835b01, .none⟩,
  ⟨[6, 7, 0, 1, 2, 3, 4, 5], 0x243185be, .none⟩,
  ⟨[5, 6, 7, 0, 1, 2, 3, 4], 0x550c7dc3, .none⟩,
  ⟨[4, 5, 6, 7, 0, 1, 2, 3], 0x72be5d74, .none⟩,
  ⟨[3, 4, 5, 6, 7, 0, 1, 2], 0x80deb1fe, .none⟩,
  ⟨[2, 3, 4, 5, 6, 7, 0, 1], 0x9bdc06a7, .none⟩,
  ⟨[1, 2, 3, 4, 5, 6, 7, 0], 0xc19bf274, .none⟩,
  ⟨[0, 1, 2, 3, 4, 5, 6, 7], 0xe49b69c1, .plus 0 [.s0 1]⟩,
  ⟨[7, 0, 1, 2, 3, 4, 5, 6], 0xefbe4786, .plus 1 [.c 0xa00000, .s0 2]⟩,
  ⟨[6, 7, 0, 1, 2, 3, 4, 5], 0x0fc19dc6, .plus 2 [.s1 0, .s0 3]⟩,
  ⟨[5, 6, 7, 0, 1, 2, 3, 4], 0x240ca1cc, .plus 3 [.s1 1, .s0 4]⟩,
  ⟨[4, 5, 6, 7, 0, 1, 2, 3], 0x2de92c6f, .plus 4 [.s1 2, .s0 5]⟩,
  ⟨[3, 4, 5, 6, 7, 0, 1, 2], 0x4a7484aa, .plus 5 [.s1 3, .s0 6]⟩,
  ⟨[2, 3, 4, 5, 6, 7, 0, 1], 0x5cb0a9dc, .plus 6 [.s1 4, .c 0x100, .s0 7]⟩,
  ⟨[1, 2, 3, 4, 5, 6, 7, 0], 0x76f988da, .plus 7 [.s1 5, .w 0, .c 0x11002000]⟩,
  ⟨[0, 1, 2, 3, 4, 5, 6, 7], 0x983e5152, .assign 8 [.c 0x80000000, .s1 6, .w 1]⟩,
  ⟨[7, 0, 1, 2, 3, 4, 5, 6], 0xa831c66d, .assign 9 [.s1 7, .w 2]⟩,
  ⟨[6, 7, 0, 1, 2, 3, 4, 5], 0xb00327c8, .assign 10 [.s1 8, .w 3]⟩,
  ⟨[5, 6, 7, 0, 1, 2, 3, 4], 0xbf597fc7, .assign 11 [.s1 9, .w 4]⟩,
  ⟨[4, 5, 6, 7, 0, 1, 2, 3], 0xc6e00bf3, .assign 12 [.s1 10, .w 5]⟩,
  ⟨[3, 4, 5, 6, 7, 0, 1, 2], 0xd5a79147, .assign 13 [.s1 11, .w 6]⟩,
  ⟨[2, 3, 4, 5, 6, 7, 0, 1], 0x06ca6351, .assign 14 [.s1 12, .w 7, .c 0x400022]⟩,
  ⟨[1, 2, 3, 4, 5, 6, 7, 0], 0x14292967, .assign 15 [.c 0x100, .s1 13, .w 8, .s0 0]⟩,
  ⟨[0, 1, 2, 3, 4, 5, 6, 7], 0x27b70a85, .plus 0 [.s1 14, .w 9, .s0 1]⟩,
  ⟨[7, 0, 1, 2, 3, 4, 5, 6], 0x2e1b2138, .plus 1 [.s1 15, .w 10, .s0 2]⟩,
  ⟨[6, 7, 0, 1, 2, 3, 4, 5], 0x4d2c6dfc, .plus 2 [.s1 0, .w 11, .s0 3]⟩,
  ⟨[5, 6, 7, 0, 1, 2, 3, 4], 0x53380d13, .plus 3 [.s1 1, .w 12, .s0 4]⟩,
  ⟨[4, 5, 6, 7, 0, 1, 2, 3], 0x650a7354, .plus 4 [.s1 2, .w 13, .s0 5]⟩,
  ⟨[3, 4, 5, 6, 7, 0, 1, 2], 0x766a0abb, .plus 5 [.s1 3, .w 14, .s0 6]⟩,
  ⟨[2, 3, 4, 5, 6, 7, 0, 1], 0x81c2c92e, .plus 6 [.s1 4, .w 15, .s0 7]⟩,
  ⟨[1, 2, 3, 4, 5, 6, 7, 0], 0x92722c85, .plus 7 [.s1 5, .w 0, .s0 8]⟩,
  ⟨[0, 1, 2, 3, 4, 5, 6, 7], 0xa2bfe8a1, .plus 8 [.s1 6, .w 1, .s0 9]⟩,
  ⟨[7, 0, 1, 2, 3, 4, 5, 6], 0xa81a664b, .plus 9 [.s1 7, .w 2, .s0 10]⟩,
  ⟨[6, 7, 0, 1, 2, 3, 4, 5], 0xc24b8b70, .plus 10 [.s1 8, .w 3, .s0 11]⟩,
  ⟨[5, 6, 7, 0, 1, 2, 3, 4], 0xc76c51a3, .plus 11 [.s1 9, .w 4, .s0 12]⟩,
  ⟨[4, 5, 6, 7, 0, 1, 2, 3], 0xd192e819, .plus 12 [.s1 10, .w 5, .s0 13]⟩,
  ⟨[3, 4, 5, 6, 7, 0, 1, 2], 0xd6990624, .plus 13 [.s1 11, .w 6, .s0 14]⟩,
  ⟨[2, 3, 4, 5, 6, 7, 0, 1], 0xf40e3585, .plus 14 [.s1 12, .w 7, .s0 15]⟩,
  ⟨[1, 2, 3, 4, 5, 6, 7, 0], 0x106aa070, .plus 15 [.s1 13, .w 8, .s0 0]⟩,
  ⟨[0, 1, 2, 3, 4, 5, 6, 7], 0x19a4c116, .plus 0 [.s1 14, .w 9, .s0 1]⟩,
  ⟨[7, 0, 1, 2, 3, 4, 5, 6], 0x1e376c08, .plus 1 [.s1 15, .w 10, .s0 2]⟩,
  ⟨[6, 7, 0, 1, 2, 3, 4, 5], 0x2748774c, .plus 2 [.s1 0, .w 11, .s0 3]⟩,
  ⟨[5, 6, 7, 0, 1, 2, 3, 4], 0x34b0bcb5, .plus 3 [.s1 1, .w 12, .s0 4]⟩,
  ⟨[4, 5, 6, 7, 0, 1, 2, 3], 0x391c0cb3, .plus 4 [.s1 2, .w 13, .s0 5]⟩,
  ⟨[3, 4, 5, 6, 7, 0, 1, 2], 0x4ed8aa4a, .plus 5 [.s1 3, .w 14, .s0 6]⟩,
  ⟨[2, 3, 4, 5, 6, 7, 0, 1], 0x5b9cca4f, .plus 6 [.s1 4, .w 15, .s0 7]⟩,
  ⟨[1, 2, 3, 4, 5, 6, 7, 0], 0x682e6ff3, .plus 7 [.s1 5, .w 0, .s0 8]⟩,
  ⟨[0, 1, 2, 3, 4, 5, 6, 7], 0x748f82ee, .plus 8 [.s1 6, .w 1, .s0 9]⟩,
  ⟨[7, 0, 1, 2, 3, 4, 5, 6], 0x78a5636f, .plus 9 [.s1 7, .w 2, .s0 10]⟩,
  ⟨[6, 7, 0, 1, 2, 3, 4, 5], 0x84c87814, .plus 10 [.s1 8, .w 3, .s0 11]⟩,
  ⟨[5, 6, 7, 0, 1, 2, 3, 4], 0x8cc70208, .plus 11 [.s1 9, .w 4, .s0 12]⟩,
  ⟨[4, 5, 6, 7, 0, 1, 2, 3], 0x90befffa, .plus 12 [.s1 10, .w 5, .s0 13]⟩,
  ⟨[3, 4, 5, 6, 7, 0, 1, 2], 0xa4506ceb, .plus 13 [.s1 11, .w 6, .s0 14]⟩,
  ⟨[2, 3, 4, 5, 6, 7, 0, 1], 0xbef9a3f7, .use [.w 14, .s1 12, .w 7, .s0 15]⟩,
  ⟨[1, 2, 3, 4, 5, 6, 7, 0], 0xc67178f2, .use [.w 15, .s1 13, .w 8, .s0 0]⟩]

/-- `sha256_transform` (sha2.c 380-507), one entry per round macro, in order. -/
def sha256Prog : List Round := [
  ⟨[0, 1, 2, 3, 4, 5, 6, 7], 0x428a2f98, .assign 0 [.be 0]⟩,
  ⟨[7, 0, 1, 2, 3, 4, 5, 6], 0x71374491, .assign 1 [.be 4]⟩,
  ⟨[6, 7, 0, 1, 2, 3, 4, 5], 0xb5c0fbcf, .assign 2 [.be 8]⟩,
  ⟨[5, 6, 7, 0, 1, 2, 3, 4], 0xe9b5dba5, .assign 3 [.be 12]⟩,
  ⟨[4, 5, 6, 7, 0, 1, 2, 3], 0x3956c25b, .assign 4 [.be 16]⟩,
  ⟨[3, 4, 5, 6, 7, 0, 1, 2], 0x59f111f1, .assign 5 [.be 20]⟩,
  ⟨[2, 3, 4, 5, 6, 7, 0, 1], 0x923f82a4, .assign 6 [.be 24]⟩,
  ⟨[1, 2, 3, 4, 5, 6, 7, 0], 0xab1c5ed5, .assign 7 [.be 28]⟩,
  ⟨[0, 1, 2, 3, 4, 5, 6, 7], 0xd807aa98, .assign 8 [.be 32]⟩,
  ⟨[7, 0, 1, 2, 3, 4, 5, 6], 0x12835b01, .assign 9 [.be 36]⟩,
  ⟨[6, 7, 0, 1, 2, 3, 4, 5], 0x243185be, .assign 10 [.be 40]⟩,
  ⟨[5, 6, 7, 0, 1, 2, 3, 4], 0x550c7dc3, .assign 11 [.be 44]⟩,
  ⟨[4, 5, 6, 7, 0, 1, 2, 3], 0x72be5d74, .assign 12 [.be 48]⟩,
  ⟨[3, 4, 5, 6, 7, 0, 1, 2], 0x80deb1fe, .assign 13 [.be 52]⟩,
  ⟨[2, 3, 4, 5, 6, 7, 0, 1], 0x9bdc06a7, .assign 14 [.be 56]⟩,
  ⟨[1, 2, 3, 4, 5, 6, 7, 0], 0xc19bf174, .assign 15 [.be 60]⟩,
  ⟨[0, 1, 2, 3, 4, 5, 6, 7], 0xe49b69c1, .plus 0 [.s1 14, .w 9, .s0 1]⟩,
  ⟨[7, 0, 1, 2, 3, 4, 5, 6], 0xefbe4786, .plus 1 [.s1 15, .w 10, .s0 2]⟩,
  ⟨[6, 7, 0, 1, 2, 3, 4, 5], 0x0fc19dc6, .plus 2 [.s1 0, .w 11, .s0 3]⟩,
  ⟨[5, 6, 7, 0, 1, 2, 3, 4], 0x240ca1cc, .plus 3 [.s1 1, .w 12, .s0 4]⟩,
  ⟨[4, 5, 6, 7, 0, 1, 2, 3], 0x2de92c6f, .plus 4 [.s1 2, .w 13, .s0 5]⟩,
  ⟨[3, 4, 5, 6, 7, 0, 1, 2], 0x4a7484aa, .plus 5 [.s1 3, .w 14, .s0 6]⟩,
  ⟨[2, 3, 4, 5, 6, 7, 0, 1], 0x5cb0a9dc, .plus 6 [.s1 4, .w 15, .s0 7]⟩,
  ⟨[1, 2, 3, 4, 5, 6, 7, 0], 0x76f988da, .plus 7 [.s1 5, .w 0, .s0 8]⟩,
  ⟨[0, 1, 2, 3, 4, 5, 6, 7], 0x983e5152, .plus 8 [.s1 6, .w 1, .s0 9]⟩,
  ⟨[7, 0, 1, 2, 3, 4, 5, 6], 0xa831c66d, .plus 9 [.s1 7, .w 2, .s0 10]⟩,
  ⟨[6, 7, 0, 1, 2, 3, 4, 5], 0xb00327c8, .plus 10 [.s1 8, .w 3, .s0 11]⟩,
  ⟨[5, 6, 7, 0, 1, 2, 3, 4], 0xbf597fc7, .plus 11 [.s1 9, .w 4, .s0 12]⟩,
  ⟨[4, 5, 6, 7, 0, 1, 2, 3], 0xc6e00bf3, .plus 12 [.s1 10, .w 5, .s0 13]⟩,
  ⟨[3, 4, 5, 6, 7, 0, 1, 2], 0xd5a79147, .plus 13 [.s1 11, .w 6, .s0 14]⟩,
  ⟨[2, 3, 4, 5, 6, 7, 0, 1], 0x06ca6351, .plus 14 [.s1 12, .w 7, .s0 15]⟩,
  ⟨[1, 2, 3, 4, 5, 6, 7, 0], 0x14292967, .plus 15 [.s1 13, .w 8, .s0 0]⟩,
  ⟨[0, 1, 2, 3, 4, 5, 6, 7], 0x27b70a85, .plus 0 [.s1 14, .w 9, .s0 1]⟩,
  ⟨[7, 0, 1, 2, 3, 4, 5, 6], 0x2e1b2138, .plus 1 [.s1 15, .w 10, .s0 2]⟩,
  ⟨[6, 7, 0, 1, 2, 3, 4, 5], 0x4d2c6dfc, .plus 2 [.s1 0, .w 11, .s0 3]⟩,
  ⟨[5, 6, 7, 0, 1, 2, 3, 4], 0x53380d13, .plus 3 [.s1 1, .w 12, .s0 4]⟩,
  ⟨[4, 5, 6, 7, 0, 1, 2, 3], 0x650a7354, .plus 4 [.s1 2, .w 13, .s0 5]⟩,
  ⟨[3, 4, 5, 6, 7, 0, 1, 2], 0x766a0abb, .plus 5 [.s1 3, .w 14, .s0 6]⟩,
  ⟨[2, 3, 4, 5, 6, 7, 0, 1], 0x81c2c92e, .plus 6 [.s1 4, .w 15, .s0 7]⟩,
  ⟨[1, 2, 3, 4, 5, 6, 7, 0], 0x92722c85, .plus 7 [.s1 5, .w 0, .s0 8]⟩,
  ⟨[0, 1, 2, 3, 4, 5, 6, 7], 0xa2bfe8a1, .plus 8 [.s1 6, .w 1, .s0 9]⟩,
  ⟨[7, 0, 1, 2, 3, 4, 5, 6], 0xa81a664b, .plus 9 [.s1 7, .w 2, .s0 10]⟩,
  ⟨[6, 7, 0, 1, 2, 3, 4, 5], 0xc24b8b70, .plus 10 [.s1 8, .w 3, .s0 11]⟩,
  ⟨[5, 6, 7, 0, 1, 2, 3, 4], 0xc76c51a3, .plus 11 [.s1 9, .w 4, .s0 12]⟩,
  ⟨[4, 5, 6, 7, 0, 1, 2, 3], 0xd192e819, .plus 12 [.s1 10, .w 5, .s0 13]⟩,
  ⟨[3, 4, 5, 6, 7, 0, 1, 2], 0xd6990624, .plus 13 [.s1 11, .w 6, .s0 14]⟩,
  ⟨[2, 3, 4, 5, 6, 7, 0, 1], 0xf40e3585, .plus 14 [.s1 12, .w 7, .s0 15]⟩,
  ⟨[1, 2, 3, 4, 5, 6, 7, 0], 0x106aa070, .plus 15 [.s1 13, .w 8, .s0 0]⟩,
  ⟨[0, 1, 2, 3, 4, 5, 6, 7], 0x19a4c116, .plus 0 [.s1 14, .w 9, .s0 1]⟩,
  ⟨[7, 0, 1, 2, 3, 4, 5, 6], 0x1e376c08, .plus 1 [.s1 15, .w 10, .s0 2]⟩,
  ⟨[6, 7, 0, 1, 2, 3, 4, 5], 0x2748774c, .plus 2 [.s1 0, .w 11, .s0 3]⟩,
  ⟨[5, 6, 7, 0, 1, 2, 3, 4], 0x34b0bcb5, .plus 3 [.s1 1, .w 12, .s0 4]⟩,
  ⟨[4, 5, 6, 7, 0, 1, 2, 3], 0x391c0cb3, .plus 4 [.s1 2, .w 13, .s0 5]⟩,
  ⟨[3, 4, 5, 6, 7, 0, 1, 2], 0x4ed8aa4a, .plus 5 [.s1 3, .w 14, .s0 6]⟩,
  ⟨[2, 3, 4, 5, 6, 7, 0, 1], 0x5b9cca4f, .plus 6 [.s1 4, .w 15, .s0 7]⟩,
  ⟨[1, 2, 3, 4, 5, 6, 7, 0], 0x682e6ff3, .plus 7 [.s1 5, .w 0, .s0 8]⟩,
  ⟨[0, 1, 2, 3, 4, 5, 6, 7], 0x748f82ee, .plus 8 [.s1 6, .w 1, .s0 9]⟩,
  ⟨[7, 0, 1, 2, 3, 4, 5, 6], 0x78a5636f, .plus 9 [.s1 7, .w 2, .s0 10]⟩,
  ⟨[6, 7, 0, 1, 2, 3, 4, 5], 0x84c87814, .plus 10 [.s1 8, .w 3, .s0 11]⟩,
  ⟨[5, 6, 7, 0, 1, 2, 3, 4], 0x8cc70208, .plus 11 [.s1 9, .w 4, .s0 12]⟩,
  ⟨[4, 5, 6, 7, 0, 1, 2, 3], 0x90befffa, .plus 12 [.s1 10, .w 5, .s0 13]⟩,
  ⟨[3, 4, 5, 6, 7, 0, 1, 2], 0xa4506ceb, .plus 13 [.s1 11, .w 6, .s0 14]⟩,
  ⟨[2, 3, 4, 5, 6, 7, 0, 1], 0xbef9a3f7, .use [.w 14, .s1 12, .w 7, .s0 15]⟩,
  ⟨[1, 2, 3, 4, 5, 6, 7, 0], 0xc67178f2, .use [.w 15, .s1 13, .w 8, .s0 0]⟩]

/-- `sha512_transform` (sha2.c 508-670), one entry per round macro, in order. -/
def sha512Prog : List Round := [
  ⟨[0, 1, 2, 3, 4, 5, 6, 7], 0x428a2f98d728ae22, .assign 0 [.be 0]⟩,
  ⟨[7, 0, 1, 2, 3, 4, 5, 6], 0x7137449123ef65cd, .assign 1 [.be 8]⟩,
  ⟨[6, 7, 0, 1, 2, 3, 4, 5], 0xb5c0fbcfec4d3b2f, .assign 2 [.be 16]⟩,
  ⟨[5, 6, 7, 0, 1, 2, 3, 4], 0xe9b5dba58189dbbc, .assign 3 [.be 24]⟩,
  ⟨[4, 5, 6, 7, 0, 1, 2, 3], 0x3956c25bf348b538, .assign 4 [.be 32]⟩,
  ⟨[3, 4, 5, 6, 7, 0, 1, 2], 0x59f111f1b605d019, .assign 5 [.be 40]⟩,
  ⟨[2, 3, 4, 5, 6, 7, 0, 1], 0x923f82a4af194f9b, .assign 6 [.be 48]⟩,
  ⟨[1, 2, 3, 4, 5, 6, 7, 0], 0xab1c5ed5da6d8118, .assign 7 [.be 56]⟩,
  ⟨[0, 1, 2, 3, 4, 5, 6, 7], 0xd807aa98a3030242, .assign 8 [.be 64]⟩,
  ⟨[7, 0, 1, 2, 3, 4, 5, 6], 0x12835b0145706fbe, .assign 9 [.be 72]⟩,
  ⟨[6, 7, 0, 1, 2, 3, 4, 5], 0x243185be4ee4b28c, .assign 10 [.be 80]⟩,
  ⟨[5, 6, 7, 0, 1, 2, 3, 4], 0x550c7dc3d5ffb4e2, .assign 11 [.be 88]⟩,
  ⟨[4, 5, 6, 7, 0, 1, 2, 3], 0x72be5d74f27b896f, .assign 12 [.be 96]⟩,
  ⟨[3, 4, 5, 6, 7, 0, 1, 2], 0x80deb1fe3b1696b1, .assign 13 [.be 104]⟩,
  ⟨[2, 3, 4, 5, 6, 7, 0, 1], 0x9bdc06a725c71235, .assign 14 [.be 112]⟩,
  ⟨[1, 2, 3, 4, 5, 6, 7, 0], 0xc19bf174cf692694, .assign 15 [.be 120]⟩,
  ⟨[0, 1, 2, 3, 4, 5, 6, 7], 0xe49b69c19ef14ad2, .plus 0 [.s1 14, .w 9, .s0 1]⟩,
  ⟨[7, 0, 1, 2, 3, 4, 5, 6], 0xefbe4786384f25e3, .plus 1 [.s1 15, .w 10, .s0 2]⟩,
  ⟨[6, 7, 0, 1, 2, 3, 4, 5], 0x0fc19dc68b8cd5b5, .plus 2 [.s1 0, .w 11, .s0 3]⟩,
  ⟨[5, 6, 7, 0, 1, 2, 3, 4], 0x240ca1cc77ac9c65, .plus 3 [.s1 1, .w 12, .s0 4]⟩,
  ⟨[4, 5, 6, 7, 0, 1, 2, 3], 0x2de92c6f592b0275, .plus 4 [.s1 2, .w 13, .s0 5]⟩,
  ⟨[3, 4, 5, 6, 7, 0, 1, 2], 0x4a7484aa6ea6e483, .plus 5 [.s1 3, .w 14, .s0 6]⟩,
  ⟨[2, 3, 4, 5, 6, 7, 0, 1], 0x5cb0a9dcbd41fbd4, .plus 6 [.s1 4, .w 15, .s0 7]⟩,
  ⟨[1, 2, 3, 4, 5, 6, 7, 0], 0x76f988da831153b5, .plus 7 [.s1 5, .w 0, .s0 8]⟩,
  ⟨[0, 1, 2, 3, 4, 5, 6, 7], 0x983e5152ee66dfab, .plus 8 [.s1 6, .w 1, .s0 9]⟩,
  ⟨[7, 0, 1, 2, 3, 4, 5, 6], 0xa831c66d2db43210, .plus 9 [.s1 7, .w 2, .s0 10]⟩,
  ⟨[6, 7, 0, 1, 2, 3, 4, 5], 0xb00327c898fb213f, .plus 10 [.s1 8, .w 3, .s0 11]⟩,
  ⟨[5, 6, 7, 0, 1, 2, 3, 4], 0xbf597fc7beef0ee4, .plus 11 [.s1 9, .w 4, .s0 12]⟩,
  ⟨[4, 5, 6, 7, 0, 1, 2, 3], 0xc6e00bf33da88fc2, .plus 12 [.s1 10, .w 5, .s0 13]⟩,
  ⟨[3, 4, 5, 6, 7, 0, 1, 2], 0xd5a79147930aa725, .plus 13 [.s1 11, .w 6, .s0 14]⟩,
  ⟨[2, 3, 4, 5, 6, 7, 0, 1], 0x06ca6351e003826f, .plus 14 [.s1 12, .w 7, .s0 15]⟩,
  ⟨[1, 2, 3, 4, 5, 6, 7, 0], 0x142929670a0e6e70, .plus 15 [.s1 13, .w 8, .s0 0]⟩,
  ⟨[0, 1, 2, 3, 4, 5, 6, 7], 0x27b70a8546d22ffc, .plus 0 [.s1 14, .w 9, .s0 1]⟩,
  ⟨[7, 0, 1, 2, 3, 4, 5, 6], 0x2e1b21385c26c926, .plus 1 [.s1 15, .w 10, .s0 2]⟩,
  ⟨[6, 7, 0, 1, 2, 3, 4, 5], 0x4d2c6dfc5ac42aed, .plus 2 [.s1 0, .w 11, .s0 3]⟩,
  ⟨[5, 6, 7, 0, 1, 2, 3, 4], 0x53380d139d95b3df, .plus 3 [.s1 1, .w 12, .s0 4]⟩,
  ⟨[4, 5, 6, 7, 0, 1, 2, 3], 0x650a73548baf63de, .plus 4 [.s1 2, .w 13, .s0 5]⟩,
  ⟨[3, 4, 5, 6, 7, 0, 1, 2], 0x766a0abb3c77b2a8, .plus 5 [.s1 3, .w 14, .s0 6]⟩,
  ⟨[2, 3, 4, 5, 6, 7, 0, 1], 0x81c2c92e47edaee6, .plus 6 [.s1 4, .w 15, .s0 7]⟩,
  ⟨[1, 2, 3, 4, 5, 6, 7, 0], 0x92722c851482353b, .plus 7 [.s1 5, .w 0, .s0 8]⟩,
  ⟨[0, 1, 2, 3, 4, 5, 6, 7], 0xa2bfe8a14cf10364, .plus 8 [.s1 6, .w 1, .s0 9]⟩,
  ⟨[7, 0, 1, 2, 3, 4, 5, 6], 0xa81a664bbc423001, .plus 9 [.s1 7, .w 2, .s0 10]⟩,
  ⟨[6, 7, 0, 1, 2, 3, 4, 5], 0xc24b8b70d0f89791, .plus 10 [.s1 8, .w 3, .s0 11]⟩,
  ⟨[5, 6, 7, 0, 1, 2, 3, 4], 0xc76c51a30654be30, .plus 11 [.s1 9, .w 4, .s0 12]⟩,
  ⟨[4, 5, 6, 7, 0, 1, 2, 3], 0xd192e819d6ef5218, .plus 12 [.s1 10, .w 5, .s0 13]⟩,
  ⟨[3, 4, 5, 6, 7, 0, 1, 2], 0xd69906245565a910, .plus 13 [.s1 11, .w 6, .s0 14]⟩,
  ⟨[2, 3, 4, 5, 6, 7, 0, 1], 0xf40e35855771202a, .plus 14 [.s1 12, .w 7, .s0 15]⟩,
  ⟨[1, 2, 3, 4, 5, 6, 7, 0], 0x106aa07032bbd1b8, .plus 15 [.s1 13, .w 8, .s0 0]⟩,
  ⟨[0, 1, 2, 3, 4, 5, 6, 7], 0x19a4c116b8d2d0c8, .plus 0 [.s1 14, .w 9, .s0 1]⟩,
  ⟨[7, 0, 1, 2, 3, 4, 5, 6], 0x1e376c085141ab53, .plus 1 [.s1 15, .w 10, .s0 2]⟩,
  ⟨[6, 7, 0, 1, 2, 3, 4, 5], 0x2748774cdf8eeb99, .plus 2 [.s1 0, .w 11, .s0 3]⟩,
  ⟨[5, 6, 7, 0, 1, 2, 3, 4], 0x34b0bcb5e19b48a8, .plus 3 [.s1 1, .w 12, .s0 4]⟩,
  ⟨[4, 5, 6, 7, 0, 1, 2, 3], 0x391c0cb3c5c95a63, .plus 4 [.s1 2, .w 13, .s0 5]⟩,
  ⟨[3, 4, 5, 6, 7, 0, 1, 2], 0x4ed8aa4ae3418acb, .plus 5 [.s1 3, .w 14, .s0 6]⟩,
  ⟨[2, 3, 4, 5, 6, 7, 0, 1], 0x5b9cca4f7763e373, .plus 6 [.s1 4, .w 15, .s0 7]⟩,
  ⟨[1, 2, 3, 4, 5, 6, 7, 0], 0x682e6ff3d6b2b8a3, .plus 7 [.s1 5, .w 0, .s0 8]⟩,
  ⟨[0, 1, 2, 3, 4, 5, 6, 7], 0x748f82ee5defb2fc, .plus 8 [.s1 6, .w 1, .s0 9]⟩,
  ⟨[7, 0, 1, 2, 3, 4, 5, 6], 0x78a5636f43172f60, .plus 9 [.s1 7, .w 2, .s0 10]⟩,
  ⟨[6, 7, 0, 1, 2, 3, 4, 5], 0x84c87814a1f0ab72, .plus 10 [.s1 8, .w 3, .s0 11]⟩,
  ⟨[5, 6, 7, 0, 1, 2, 3, 4], 0x8cc702081a6439ec, .plus 11 [.s1 9, .w 4, .s0 12]⟩,
  ⟨[4, 5, 6, 7, 0, 1, 2, 3], 0x90befffa23631e28, .plus 12 [.s1 10, .w 5, .s0 13]⟩,
  ⟨[3, 4, 5, 6, 7, 0, 1, 2], 0xa4506cebde82bde9, .plus 13 [.s1 11, .w 6, .s0 14]⟩,
  ⟨[2, 3, 4, 5, 6, 7, 0, 1], 0xbef9a3f7b2c67915, .plus 14 [.s1 12, .w 7, .s0 15]⟩,
  ⟨[1, 2, 3, 4, 5, 6, 7, 0], 0xc67178f2e372532b, .plus 15 [.s1 13, .w 8, .s0 0]⟩,
  ⟨[0, 1, 2, 3, 4, 5, 6, 7], 0xca273eceea26619c, .plus 0 [.s1 14, .w 9, .s0 1]⟩,
  ⟨[7, 0, 1, 2, 3, 4, 5, 6], 0xd186b8c721c0c207, .plus 1 [.s1 15, .w 10, .s0 2]⟩,
  ⟨[6, 7, 0, 1, 2, 3, 4, 5], 0xeada7dd6cde0eb1e, .plus 2 [.s1 0, .w 11, .s0 3]⟩,
  ⟨[5, 6, 7, 0, 1, 2, 3, 4], 0xf57d4f7fee6ed178, .plus 3 [.s1 1, .w 12, .s0 4]⟩,
  ⟨[4, 5, 6, 7, 0, 1, 2, 3], 0x06f067aa72176fba, .plus 4 [.s1 2, .w 13, .s0 5]⟩,
  ⟨[3, 4, 5, 6, 7, 0, 1, 2], 0x0a637dc5a2c898a6, .plus 5 [.s1 3, .w 14, .s0 6]⟩,
  ⟨[2, 3, 4, 5, 6, 7, 0, 1], 0x113f9804bef90dae, .plus 6 [.s1 4, .w 15, .s0 7]⟩,
  ⟨[1, 2, 3, 4, 5, 6, 7, 0], 0x1b710b35131c471b, .plus 7 [.s1 5, .w 0, .s0 8]⟩,
  ⟨[0, 1, 2, 3, 4, 5, 6, 7], 0x28db77f523047d84, .plus 8 [.s1 6, .w 1, .s0 9]⟩,
  ⟨[7, 0, 1, 2, 3, 4, 5, 6], 0x32caab7b40c72493, .plus 9 [.s1 7, .w 2, .s0 10]⟩,
  ⟨[6, 7, 0, 1, 2, 3, 4, 5], 0x3c9ebe0a15c9bebc, .plus 10 [.s1 8, .w 3, .s0 11]⟩,
  ⟨[5, 6, 7, 0, 1, 2, 3, 4], 0x431d67c49c100d4c, .plus 11 [.s1 9, .w 4, .s0 12]⟩,
  ⟨[4, 5, 6, 7, 0, 1, 2, 3], 0x4cc5d4becb3e42b6, .plus 12 [.s1 10, .w 5, .s0 13]⟩,
  ⟨[3, 4, 5, 6, 7, 0, 1, 2], 0x597f299cfc657e2a, .plus 13 [.s1 11, .w 6, .s0 14]⟩,
  ⟨[2, 3, 4, 5, 6, 7, 0, 1], 0x5fcb6fab3ad6faec, .use [.w 14, .s1 12, .w 7, .s0 15]⟩,
  ⟨[1, 2, 3, 4, 5, 6, 7, 0], 0x6c44198c4a475817, .use [.w 15, .s1 13, .w 8, .s0 0]⟩]

end Sha2
