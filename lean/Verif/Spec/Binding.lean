import Verif.Spec.Secp256k1
/-! The second public key a signature fits. -/
namespace Secp256k1

/-- `-(Q + (2·z/r)·G)`: if `(r, s)` is a signature of the number `z` under `Q`, with `s·R = z·G + r·Q`, then
`-s·R = z·G + r·(-(Q + (2·z/r)·G))`, and `R` and `-R` have the same abscissa. -/
def otherKey (Q : Pt) (z r : Nat) : Pt := neg (add (mul (2 * z * invMod n r % n) G) Q)

end Secp256k1
