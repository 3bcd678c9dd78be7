import Verif.Spec.Hex
/-! What a fatal error of the library looks like on `stderr`. -/
namespace ReportSpec

/-- The number that digits denote, most significant first. -/
def number (base : Nat) (ds : List (BitVec 8)) : Nat :=
  ds.foldl (fun a c => a * base + (HexSpec.value? c).getD 0) 0

/-- `ds` is the usual numeral of `n`: digits below the base, no zero in front (except 0 itself). -/
def IsNumeral (base : Nat) (ds : List (BitVec 8)) (n : Nat) : Prop :=
  ds ≠ [] ∧ (∀ c ∈ ds, ∃ v, HexSpec.value? c = some v ∧ v < base) ∧ (ds.head? = some 48#8 → ds.length = 1) ∧ number base ds = n

/-- The same with a minus sign for negative numbers. -/
def IsSigned (ds : List (BitVec 8)) (v : Int) : Prop :=
  (0 ≤ v ∧ IsNumeral 10 ds v.toNat) ∨ (v < 0 ∧ ∃ d, ds = 45#8 :: d ∧ IsNumeral 10 d (-v).toNat)

end ReportSpec
