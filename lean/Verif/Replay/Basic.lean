import Verif.Model.Basic
/-!
The project's own test cases (`/repo/tests`), replayed on the model by evaluation in the kernel.  These are tests of the model, not proofs
of properties: they guard against misreadings of the C text.  Generated by `tools/replay_gen.py`.
-/
namespace Replay

/-- The call returned `a`. -/
def gives {α : Type} [DecidableEq α] (r : Res α) (a : α) : Bool := decide (r = .ok a)

/-- A hexadecimal digit (own parser, not the model's). -/
def nibble (c : Char) : Nat :=
  let n := c.toNat
  if 48 ≤ n ∧ n ≤ 57 then n - 48 else if 97 ≤ n ∧ n ≤ 102 then n - 87 else n - 55

def hexPairs : List Char → List Byte
  | a :: b :: r => BitVec.ofNat 8 (16 * nibble a + nibble b) :: hexPairs r
  | _ => []

def ofHex (s : String) : List Byte := hexPairs s.toList

/-- The object behind the `c_str()` of a `std::string`. -/
def obj (s : String) : List Byte := cstr s ++ [0#8]

def zeros (n : Nat) : List Byte := List.replicate n 0#8

/-- `x` at the beginning of an array of `n` zeros. -/
def padded (x : List Byte) (n : Nat) : List Byte := x ++ zeros (n - x.length)

end Replay
