import Verif.Spec.BaseN
/-! Which texts are the ones that a text is written as (specification of C91).

A text of digits of 6 (Base64) or 5 (Base32) bits has more bits than the bytes it stands for: the bits behind the last complete byte do not belong
to any byte. Texts that differ in these bits alone stand for the same bytes; the one that is written has zeros there. -/
namespace BaseN

/-- The bits of the last of `n` digits of `k` bits that do not belong to a byte are zero (`v` is the value of that digit). -/
def SpareBitsZero (k n v : Nat) : Prop := 2 ^ (k * n % 8) ∣ v

end BaseN

namespace Base64Spec
/-- The text ends with the last character of a byte, and that character has no bits set that do not belong to a byte. -/
def Ends (url : Bool) (s : List (BitVec 8)) : Prop :=
  s.length % 4 ≠ 1 ∧ ∀ c v, s.getLast? = some c → value? url c = some v → BaseN.SpareBitsZero 6 s.length v
end Base64Spec

namespace Base32Spec
/-- The same for Base32. -/
def Ends (s : List (BitVec 8)) : Prop :=
  ∀ c v, s.getLast? = some c → value? c = some v → BaseN.SpareBitsZero 5 s.length v

/-- The padding that makes a text of `n` characters a multiple of eight. -/
def pad (n : Nat) : List (BitVec 8) := List.replicate ((8 - n % 8) % 8) 61#8
end Base32Spec

/-- Letters in upper case. -/
def asciiUpper (c : BitVec 8) : BitVec 8 := if 97 ≤ c.toNat ∧ c.toNat ≤ 122 then c - 32#8 else c
