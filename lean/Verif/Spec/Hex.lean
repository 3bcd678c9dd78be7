/-! Independent specification of hexadecimal text. -/
namespace HexSpec

/-- The digit for a nibble value. -/
def digit (upper : Bool) (n : Nat) : BitVec 8 :=
  if n < 10 then BitVec.ofNat 8 (48 + n)               -- '0'..'9'
  else if upper then BitVec.ofNat 8 (65 + (n - 10))     -- 'A'..'F'
  else BitVec.ofNat 8 (97 + (n - 10))                   -- 'a'..'f'

/-- Value of a hexadecimal digit of either case. -/
def value? (c : BitVec 8) : Option Nat :=
  let n := c.toNat
  if 48 ≤ n ∧ n ≤ 57 then some (n - 48)
  else if 65 ≤ n ∧ n ≤ 70 then some (n - 65 + 10)
  else if 97 ≤ n ∧ n ≤ 102 then some (n - 97 + 10)
  else none

/-- Two digits per byte, high nibble first. -/
def encode (upper : Bool) (bs : List (BitVec 8)) : List (BitVec 8) :=
  bs.flatMap fun b => [digit upper (b.toNat / 16), digit upper (b.toNat % 16)]

/-- Bytes of the longest prefix made of pairs of hexadecimal digits. -/
def decode : List (BitVec 8) → List (BitVec 8)
  | a :: b :: rest =>
    match value? a, value? b with
    | some x, some y => BitVec.ofNat 8 (16 * x + y) :: decode rest
    | _, _ => []
  | _ => []

/-- Separators in front of byte number `i` of a dump. -/
def sep (i : Nat) : List (BitVec 8) :=
  if i = 0 then [] else
    (if i % 4 = 0 then [32#8] else []) ++ (if i % 8 = 0 then [32#8] else []) ++
    (if i % 16 = 0 then [32#8] else []) ++ (if i % 32 = 0 then [10#8] else [])

/-- Text printed for a dump whose first byte has number `i`. -/
def dumpFrom (upper : Bool) (i : Nat) : List (BitVec 8) → List (BitVec 8)
  | [] => []
  | b :: rest => sep i ++ [digit upper (b.toNat / 16), digit upper (b.toNat % 16)]
      ++ dumpFrom upper (i + 1) rest

def dump (upper : Bool) (bs : List (BitVec 8)) : List (BitVec 8) :=
  dumpFrom upper 0 bs ++ [10#8]

end HexSpec
