import Verif.Spec.Secp256k1
import Mathlib.NumberTheory.LucasPrimality
import Mathlib.Tactic.NormNum.Prime
/-! Modular exponentiation and Pratt's primality certificates. -/
namespace Secp256k1

theorem powMod_eq (m : Nat) : ∀ (f a e : Nat), e < 2 ^ f → powMod m f a e = a ^ e % m
  | 0, a, e, h => by
    have : e = 0 := by simpa using h
    simp [powMod, this]
  | f+1, a, e, h => by
    have h2 : e / 2 < 2 ^ f := by rw [Nat.pow_succ] at h; omega
    have key : powMod m f (a * a % m) (e / 2) = (a * a) ^ (e / 2) % m := by
      rw [powMod_eq m f _ _ h2, Nat.pow_mod, Nat.mod_mod, ← Nat.pow_mod]
    rw [powMod]
    by_cases h0 : e = 0
    · simp [h0]
    rw [if_neg h0, key]
    by_cases h1 : e % 2 = 1
    · rw [if_pos h1, Nat.mul_mod, Nat.mod_mod, ← Nat.mul_mod]
      congr 1
      conv => rhs; rw [show e = 2 * (e / 2) + 1 by omega]
      rw [pow_succ, pow_mul, mul_comm, pow_two]
    · rw [if_neg h1]
      congr 1
      conv => rhs; rw [show e = 2 * (e / 2) by omega]
      rw [pow_mul, pow_two]

/-- Pratt's certificate. -/
theorem pratt (q a : Nat) (fs : List Nat) (hfs : ∀ r ∈ fs, Nat.Prime r) (hlt : 2 ≤ q ∧ q < 2 ^ 256)
    (hprod : fs.prod = q - 1) (h1 : powMod q 256 a (q - 1) = 1)
    (h2 : ∀ r ∈ fs, powMod q 256 a ((q - 1) / r) ≠ 1) : Nat.Prime q := by
  have cast : ∀ e : Nat, e < 2 ^ 256 → ((a : ZMod q) ^ e = 1 ↔ powMod q 256 a e = 1) := by
    intro e he
    rw [powMod_eq q 256 a e he]
    have : ((a : ZMod q) ^ e = 1) ↔ (((a ^ e : Nat) : ZMod q) = ((1 : Nat) : ZMod q)) := by
      push_cast; rfl
    rw [this, ZMod.natCast_eq_natCast_iff', Nat.mod_eq_of_lt (show 1 < q by omega)]
  refine lucas_primality q (a : ZMod q) ((cast _ (by omega)).2 h1) ?_
  intro r hr hd
  have hle : (q - 1) / r < 2 ^ 256 := lt_of_le_of_lt (Nat.div_le_self _ _) (by omega)
  rw [Ne, cast _ hle]
  rw [← hprod] at hd
  obtain ⟨s, hs, hrs⟩ := (Prime.dvd_prod_iff hr.prime).1 hd
  have : r = s := (Nat.prime_dvd_prime_iff_eq hr (hfs s hs)).1 hrs
  subst this
  exact h2 r hs

end Secp256k1
