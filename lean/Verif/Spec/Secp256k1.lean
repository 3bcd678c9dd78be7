/-!
The elliptic curve secp256k1 (SEC 2, section 2.4.1): `y² = x³ + 7` over the integers modulo `p`, with the
base point `G` of order `n`.  Everything is executable; that this is a group of prime order `n` is
proved in `Verif.Lemmas.Secp256k1` (`Verif.Props.Secp256k1` states it).
-/
namespace Secp256k1

/-- `a ^ e mod m` by squaring; `f` bounds the number of binary digits of `e`. -/
def powMod (m : Nat) : Nat → Nat → Nat → Nat
  | 0, _, _ => 1 % m
  | f+1, a, e =>
    if e = 0 then 1 % m
    else if e % 2 = 1 then a * powMod m f (a * a % m) (e / 2) % m
    else powMod m f (a * a % m) (e / 2)

/-- The field prime `2^256 - 2^32 - 977`. -/
def p : Nat := 0xFFFFFFFFFFFFFFFFFFFFFFFFFFFFFFFFFFFFFFFFFFFFFFFFFFFFFFFEFFFFFC2F

/-- The group order. -/
def n : Nat := 0xFFFFFFFFFFFFFFFFFFFFFFFFFFFFFFFEBAAEDCE6AF48A03BBFD25E8CD0364141

/-- Inverse modulo a prime `q < 2^256` (Fermat). -/
def invMod (q a : Nat) : Nat := powMod q 256 a (q - 2)

/-- A point: `none` is the point at infinity. -/
abbrev Pt := Option (Nat × Nat)

/-- The base point. -/
def G : Pt := some
  (0x79BE667EF9DCBBAC55A06295CE870B07029BFCDB2DCE28D959F2815B16F81798,
   0x483ADA7726A3C4655DA4FBFC0E1108A8FD17B448A68554199C47D08FFB10D4B8)

/-- Membership. -/
def OnCurve : Pt → Prop
  | none => True
  | some (x, y) => x < p ∧ y < p ∧ y * y % p = (x * x * x + 7) % p

instance : DecidablePred OnCurve := fun P => by
  cases P with
  | none => exact isTrue trivial
  | some xy => unfold OnCurve; infer_instance

/-- The third point of the line of slope `l` through `(x1, y1)` and a point with abscissa `x2`,
reflected. -/
def chord (l x1 y1 x2 : Nat) : Pt :=
  let x3 := (l * l + (p - x1) + (p - x2)) % p
  some (x3, (l * (x1 + (p - x3)) + (p - y1)) % p)

/-- Addition of points. -/
def add : Pt → Pt → Pt
  | none, Q => Q
  | some P, none => some P
  | some (x1, y1), some (x2, y2) =>
    if x1 = x2 then
      if (y1 + y2) % p = 0 then none
      else chord (3 * (x1 * x1) * invMod p (2 * y1 % p) % p) x1 y1 x2
    else chord ((y2 + (p - y1)) * invMod p ((x2 + (p - x1)) % p) % p) x1 y1 x2

/-- Negation. -/
def neg : Pt → Pt
  | none => none
  | some (x, y) => some (x, (p - y) % p)

/-- `k · P` for `k < 2^f` by doubling and adding. -/
def mulAux : Nat → Nat → Pt → Pt
  | 0, _, _ => none
  | f+1, k, P =>
    if k = 0 then none
    else if k % 2 = 1 then add P (mulAux f (k / 2) (add P P))
    else mulAux f (k / 2) (add P P)

/-- `k · P` for `k < 2^256`. -/
def mul (k : Nat) (P : Pt) : Pt := mulAux 256 k P

end Secp256k1
