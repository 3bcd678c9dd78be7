import Verif.Model.Basic
/-!
The unrolled steps of `src/hash/ripemd160.c` as data.  Generated by `tools/sha1_gen.py` from the C
text: `aa…ee` and `aaa…eee` are the numbers 0…4 (of two separate register sets), `X0…X15` the numbers
0…15.  What an entry does is defined by the interpreter in `Verif.Model.Ripemd160`.
-/
namespace Ripemd160

/-- Name of the step macro (ripemd160.c 21-80). -/
inductive Mac where
  | FF | GG | HH | II | JJ | FFF | GGG | HHH | III | JJJ
deriving DecidableEq, Repr

/-- `MAC(regs…, X_x, s)`. -/
structure Step where
  mac : Mac
  regs : List Nat
  x : Nat
  s : Nat
deriving DecidableEq, Repr

/-- The left line (ripemd160.c 98-185), in order. -/
def progL : List Step := [
  ⟨.FF, [0, 1, 2, 3, 4], 0, 11⟩,
  ⟨.FF, [4, 0, 1, 2, 3], 1, 14⟩,
  ⟨.FF, [3, 4, 0, 1, 2], 2, 15⟩,
  ⟨.FF, [2, 3, 4, 0, 1], 3, 12⟩,
  ⟨.FF, [1, 2, 3, 4, 0], 4, 5⟩,
  ⟨.FF, [0, 1, 2, 3, 4], 5, 8⟩,
  ⟨.FF, [4, 0, 1, 2, 3], 6, 7⟩,
  ⟨.FF, [3, 4, 0, 1, 2], 7, 9⟩,
  ⟨.FF, [2, 3, 4, 0, 1], 8, 11⟩,
  ⟨.FF, [1, 2, 3, 4, 0], 9, 13⟩,
  ⟨.FF, [0, 1, 2, 3, 4], 10, 14⟩,
  ⟨.FF, [4, 0, 1, 2, 3], 11, 15⟩,
  ⟨.FF, [3, 4, 0, 1, 2], 12, 6⟩,
  ⟨.FF, [2, 3, 4, 0, 1], 13, 7⟩,
  ⟨.FF, [1, 2, 3, 4, 0], 14, 9⟩,
  ⟨.FF, [0, 1, 2, 3, 4], 15, 8⟩,
  ⟨.GG, [4, 0, 1, 2, 3], 7, 7⟩,
  ⟨.GG, [3, 4, 0, 1, 2], 4, 6⟩,
  ⟨.GG, [2, 3, 4, 0, 1], 13, 8⟩,
  ⟨.GG, [1, 2, 3, 4, 0], 1, 13⟩,
  ⟨.GG, [0, 1, 2, 3, 4], 10, 11⟩,
  ⟨.GG, [4, 0, 1, 2, 3], 6, 9⟩,
  ⟨.GG, [3, 4, 0, 1, 2], 15, 7⟩,
  ⟨.GG, [2, 3, 4, 0, 1], 3, 15⟩,
  ⟨.GG, [1, 2, 3, 4, 0], 12, 7⟩,
  ⟨.GG, [0, 1, 2, 3, 4], 0, 12⟩,
  ⟨.GG, [4, 0, 1, 2, 3], 9, 15⟩,
  ⟨.GG, [3, 4, 0, 1, 2], 5, 9⟩,
  ⟨.GG, [2, 3, 4, 0, 1], 2, 11⟩,
  ⟨.GG, [1, 2, 3, 4, 0], 14, 7⟩,
  ⟨.GG, [0, 1, 2, 3, 4], 11, 13⟩,
  ⟨.GG, [4, 0, 1, 2, 3], 8, 12⟩,
  ⟨.HH, [3, 4, 0, 1, 2], 3, 11⟩,
  ⟨.HH, [2, 3, 4, 0, 1], 10, 13⟩,
  ⟨.HH, [1, 2, 3, 4, 0], 14, 6⟩,
  ⟨.HH, [0, 1, 2, 3, 4], 4, 7⟩,
  ⟨.HH, [4, 0, 1, 2, 3], 9, 14⟩,
  ⟨.HH, [3, 4, 0, 1, 2], 15, 9⟩,
  ⟨.HH, [2, 3, 4, 0, 1], 8, 13⟩,
  ⟨.HH, [1, 2, 3, 4, 0], 1, 15⟩,
  ⟨.HH, [0, 1, 2, 3, 4], 2, 14⟩,
  ⟨.HH, [4, 0, 1, 2, 3], 7, 8⟩,
  ⟨.HH, [3, 4, 0, 1, 2], 0, 13⟩,
  ⟨.HH, [2, 3, 4, 0, 1], 6, 6⟩,
  ⟨.HH, [1, 2, 3, 4, 0], 13, 5⟩,
  ⟨.HH, [0, 1, 2, 3, 4], 11, 12⟩,
  ⟨.HH, [4, 0, 1, 2, 3], 5, 7⟩,
  ⟨.HH, [3, 4, 0, 1, 2], 12, 5⟩,
  ⟨.II, [2, 3, 4, 0, 1], 1, 11⟩,
  ⟨.II, [1, 2, 3, 4, 0], 9, 12⟩,
  ⟨.II, [0, 1, 2, 3, 4], 11, 14⟩,
  ⟨.II, [4, 0, 1, 2, 3], 10, 15⟩,
  ⟨.II, [3, 4, 0, 1, 2], 0, 14⟩,
  ⟨.II, [2, 3, 4, 0, 1], 8, 15⟩,
  ⟨.II, [1, 2, 3, 4, 0], 12, 9⟩,
  ⟨.II, [0, 1, 2, 3, 4], 4, 8⟩,
  ⟨.II, [4, 0, 1, 2, 3], 13, 9⟩,
  ⟨.II, [3, 4, 0, 1, 2], 3, 14⟩,
  ⟨.II, [2, 3, 4, 0, 1], 7, 5⟩,
  ⟨.II, [1, 2, 3, 4, 0], 15, 6⟩,
  ⟨.II, [0, 1, 2, 3, 4], 14, 8⟩,
  ⟨.II, [4, 0, 1, 2, 3], 5, 6⟩,
  ⟨.II, [3, 4, 0, 1, 2], 6, 5⟩,
  ⟨.II, [2, 3, 4, 0, 1], 2, 12⟩,
  ⟨.JJ, [1, 2, 3, 4, 0], 4, 9⟩,
  ⟨.JJ, [0, 1, 2, 3, 4], 0, 15⟩,
  ⟨.JJ, [4, 0, 1, 2, 3], 5, 5⟩,
  ⟨.JJ, [3, 4, 0, 1, 2], 9, 11⟩,
  ⟨.JJ, [2, 3, 4, 0, 1], 7, 6⟩,
  ⟨.JJ, [1, 2, 3, 4, 0], 12, 8⟩,
  ⟨.JJ, [0, 1, 2, 3, 4], 2, 13⟩,
  ⟨.JJ, [4, 0, 1, 2, 3], 10, 12⟩,
  ⟨.JJ, [3, 4, 0, 1, 2], 14, 5⟩,
  ⟨.JJ, [2, 3, 4, 0, 1], 1, 12⟩,
  ⟨.JJ, [1, 2, 3, 4, 0], 3, 13⟩,
  ⟨.JJ, [0, 1, 2, 3, 4], 8, 14⟩,
  ⟨.JJ, [4, 0, 1, 2, 3], 11, 11⟩,
  ⟨.JJ, [3, 4, 0, 1, 2], 6, 8⟩,
  ⟨.JJ, [2, 3, 4, 0, 1], 15, 5⟩,
  ⟨.JJ, [1, 2, 3, 4, 0], 13, 6⟩]

/-- The parallel line (ripemd160.c 188-275), in order. -/
def progR : List Step := [
  ⟨.JJJ, [0, 1, 2, 3, 4], 5, 8⟩,
  ⟨.JJJ, [4, 0, 1, 2, 3], 14, 9⟩,
  ⟨.JJJ, [3, 4, 0, 1, 2], 7, 9⟩,
  ⟨.JJJ, [2, 3, 4, 0, 1], 0, 11⟩,
  ⟨.JJJ, [1, 2, 3, 4, 0], 9, 13⟩,
  ⟨.JJJ, [0, 1, 2, 3, 4], 2, 15⟩,
  ⟨.JJJ, [4, 0, 1, 2, 3], 11, 15⟩,
  ⟨.JJJ, [3, 4, 0, 1, 2], 4, 5⟩,
  ⟨.JJJ, [2, 3, 4, 0, 1], 13, 7⟩,
  ⟨.JJJ, [1, 2, 3, 4, 0], 6, 7⟩,
  ⟨.JJJ, [0, 1, 2, 3, 4], 15, 8⟩,
  ⟨.JJJ, [4, 0, 1, 2, 3], 8, 11⟩,
  ⟨.JJJ, [3, 4, 0, 1, 2], 1, 14⟩,
  ⟨.JJJ, [2, 3, 4, 0, 1], 10, 14⟩,
  ⟨.JJJ, [1, 2, 3, 4, 0], 3, 12⟩,
  ⟨.JJJ, [0, 1, 2, 3, 4], 12, 6⟩,
  ⟨.III, [4, 0, 1, 2, 3], 6, 9⟩,
  ⟨.III, [3, 4, 0, 1, 2], 11, 13⟩,
  ⟨.III, [2, 3, 4, 0, 1], 3, 15⟩,
  ⟨.III, [1, 2, 3, 4, 0], 7, 7⟩,
  ⟨.III, [0, 1, 2, 3, 4], 0, 12⟩,
  ⟨.III, [4, 0, 1, 2, 3], 13, 8⟩,
  ⟨.III, [3, 4, 0, 1, 2], 5, 9⟩,
  ⟨.III, [2, 3, 4, 0, 1], 10, 11⟩,
  ⟨.III, [1, 2, 3, 4, 0], 14, 7⟩,
  ⟨.III, [0, 1, 2, 3, 4], 15, 7⟩,
  ⟨.III, [4, 0, 1, 2, 3], 8, 12⟩,
  ⟨.III, [3, 4, 0, 1, 2], 12, 7⟩,
  ⟨.III, [2, 3, 4, 0, 1], 4, 6⟩,
  ⟨.III, [1, 2, 3, 4, 0], 9, 15⟩,
  ⟨.III, [0, 1, 2, 3, 4], 1, 13⟩,
  ⟨.III, [4, 0, 1, 2, 3], 2, 11⟩,
  ⟨.HHH, [3, 4, 0, 1, 2], 15, 9⟩,
  ⟨.HHH, [2, 3, 4, 0, 1], 5, 7⟩,
  ⟨.HHH, [1, 2, 3, 4, 0], 1, 15⟩,
  ⟨.HHH, [0, 1, 2, 3, 4], 3, 11⟩,
  ⟨.HHH, [4, 0, 1, 2, 3], 7, 8⟩,
  ⟨.HHH, [3, 4, 0, 1, 2], 14, 6⟩,
  ⟨.HHH, [2, 3, 4, 0, 1], 6, 6⟩,
  ⟨.HHH, [1, 2, 3, 4, 0], 9, 14⟩,
  ⟨.HHH, [0, 1, 2, 3, 4], 11, 12⟩,
  ⟨.HHH, [4, 0, 1, 2, 3], 8, 13⟩,
  ⟨.HHH, [3, 4, 0, 1, 2], 12, 5⟩,
  ⟨.HHH, [2, 3, 4, 0, 1], 2, 14⟩,
  ⟨.HHH, [1, 2, 3, 4, 0], 10, 13⟩,
  ⟨.HHH, [0, 1, 2, 3, 4], 0, 13⟩,
  ⟨.HHH, [4, 0, 1, 2, 3], 4, 7⟩,
  ⟨.HHH, [3, 4, 0, 1, 2], 13, 5⟩,
  ⟨.GGG, [2, 3, 4, 0, 1], 8, 15⟩,
  ⟨.GGG, [1, 2, 3, 4, 0], 6, 5⟩,
  ⟨.GGG, [0, 1, 2, 3, 4], 4, 8⟩,
  ⟨.GGG, [4, 0, 1, 2, 3], 1, 11⟩,
  ⟨.GGG, [3, 4, 0, 1, 2], 3, 14⟩,
  ⟨.GGG, [2, 3, 4, 0, 1], 11, 14⟩,
  ⟨.GGG, [1, 2, 3, 4, 0], 15, 6⟩,
  ⟨.GGG, [0, 1, 2, 3, 4], 0, 14⟩,
  ⟨.GGG, [4, 0, 1, 2, 3], 5, 6⟩,
  ⟨.GGG, [3, 4, 0, 1, 2], 12, 9⟩,
  ⟨.GGG, [2, 3, 4, 0, 1], 2, 12⟩,
  ⟨.GGG, [1, 2, 3, 4, 0], 13, 9⟩,
  ⟨.GGG, [0, 1, 2, 3, 4], 9, 12⟩,
  ⟨.GGG, [4, 0, 1, 2, 3], 7, 5⟩,
  ⟨.GGG, [3, 4, 0, 1, 2], 10, 15⟩,
  ⟨.GGG, [2, 3, 4, 0, 1], 14, 8⟩,
  ⟨.FFF, [1, 2, 3, 4, 0], 12, 8⟩,
  ⟨.FFF, [0, 1, 2, 3, 4], 15, 5⟩,
  ⟨.FFF, [4, 0, 1, 2, 3], 10, 12⟩,
  ⟨.FFF, [3, 4, 0, 1, 2], 4, 9⟩,
  ⟨.FFF, [2, 3, 4, 0, 1], 1, 12⟩,
  ⟨.FFF, [1, 2, 3, 4, 0], 5, 5⟩,
  ⟨.FFF, [0, 1, 2, 3, 4], 8, 14⟩,
  ⟨.FFF, [4, 0, 1, 2, 3], 7, 6⟩,
  ⟨.FFF, [3, 4, 0, 1, 2], 6, 8⟩,
  ⟨.FFF, [2, 3, 4, 0, 1], 2, 13⟩,
  ⟨.FFF, [1, 2, 3, 4, 0], 13, 6⟩,
  ⟨.FFF, [0, 1, 2, 3, 4], 14, 5⟩,
  ⟨.FFF, [4, 0, 1, 2, 3], 0, 15⟩,
  ⟨.FFF, [3, 4, 0, 1, 2], 3, 13⟩,
  ⟨.FFF, [2, 3, 4, 0, 1], 9, 11⟩,
  ⟨.FFF, [1, 2, 3, 4, 0], 11, 11⟩]

end Ripemd160
