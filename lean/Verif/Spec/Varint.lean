/-! Specification of the variable-length integers: big-endian bijective base 128.  Every byte but
the last has its top bit set; each such byte contributes its low seven bits plus one. -/
namespace VarintSpec

/-- A complete encoding: continuation bytes followed by one byte with the top bit clear. -/
def Complete (s : List (BitVec 8)) : Prop :=
  ∃ p b, s = p ++ [b] ∧ (∀ x ∈ p, 128 ≤ x.toNat) ∧ b.toNat < 128

/-- The (unbounded) number denoted by a byte string. -/
def value (s : List (BitVec 8)) : Nat :=
  s.foldl (fun n b => n * 128 + b.toNat % 128 + (if 128 ≤ b.toNat then 1 else 0)) 0

/-- Smallest number whose encoding has `k` bytes: 0, 128, 128+128², … -/
def least : Nat → Nat
  | 0 => 0
  | 1 => 0
  | k+2 => 128 * (least (k+1) + 1)

/-- Signed numbers as unsigned ones: twice the magnitude, plus one if negative. -/
def zigzag (v : Int) : Nat := 2 * v.natAbs + if v < 0 then 1 else 0

/-- And back; 1 is a second zero. -/
def unzigzag (u : Nat) : Int := if u % 2 = 1 then -(u / 2 : Nat) else (u / 2 : Nat)

end VarintSpec
