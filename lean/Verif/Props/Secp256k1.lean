import Verif.Lemmas.Ecdsa
/-!
The executable curve of `Verif.Spec.Secp256k1`, which all key theorems speak about, is the group of points of an
elliptic curve in the sense of Mathlib, of prime order.  (Not a property of /repo: it shows the specification means what
it says.)
-/
namespace Secp256k1

/-- `p` and `n` are prime. -/
theorem curve_primes : Nat.Prime p ∧ Nat.Prime n := ⟨p_prime, n_prime⟩

/-- `OnCurve` is in bijection with the points of `y² = x³ + 7` over the field with `p` elements (Mathlib's
`WeierstrassCurve.Affine.Point`), and `add`, `neg` and `mul` are the group operations. -/
theorem curve_group :
    (∀ P Q, OnCurve P → OnCurve Q → toPoint P = toPoint Q → P = Q) ∧
    (∀ T, ∃ P, OnCurve P ∧ toPoint P = T) ∧
    (∀ P Q, OnCurve P → OnCurve Q → OnCurve (add P Q) ∧ toPoint (add P Q) = toPoint P + toPoint Q) ∧
    (∀ P, OnCurve P → OnCurve (neg P) ∧ toPoint (neg P) = -toPoint P) ∧
    (∀ k P, k < 2 ^ 256 → OnCurve P → OnCurve (mul k P) ∧ toPoint (mul k P) = k • toPoint P) :=
  ⟨fun _ _ => toPoint_inj, toPoint_surj, fun _ _ => add_spec, fun _ => neg_spec, fun _ _ => mul_spec⟩

/-- The group has exactly `n` elements. -/
theorem curve_order : Nat.card W.Point = n := card_eq

/-- Every point but the neutral one generates the group; in particular `G` does. -/
theorem curve_cyclic (T : W.Point) (k : Nat) (hT : T ≠ 0) : k • T = 0 ↔ n ∣ k := by
  have ho : addOrderOf T = n := by
    have := addOrderOf_dvd_of_nsmul_eq_zero (n_nsmul T)
    rcases (Nat.dvd_prime n_prime).1 this with h | h
    · exact absurd (AddMonoid.addOrderOf_eq_one_iff.1 h) hT
    · exact h
  rw [← addOrderOf_dvd_iff_nsmul_eq_zero, ho]

/-- Public keys determine secret keys: no two valid secret keys share a public key. -/
theorem pub_injective {a b : Nat} (ha : a < n) (hb : b < n) (h : mul a G = mul b G) : a = b := mul_G_inj ha hb h

end Secp256k1
