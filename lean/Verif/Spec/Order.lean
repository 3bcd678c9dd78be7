/-! The order of byte strings and texts (specification of C116): that of `memcmp`, where a beginning comes before the whole (as with `strcmp`,
for texts without NUL). -/
namespace OrderSpec

/-- `a` comes before `b`. -/
def before : List (BitVec 8) → List (BitVec 8) → Bool
  | _, [] => false
  | [], _ :: _ => true
  | x :: a, y :: b => decide (x.toNat < y.toNat) || (x = y && before a b)

end OrderSpec
