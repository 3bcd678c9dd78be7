import Verif.Lemmas.Sec1
import Mathlib.GroupTheory.OrderOfElement
import Mathlib.SetTheory.Cardinal.Finite
import Mathlib.GroupTheory.Perm.Cycle.Type
/-! The curve has exactly `n` points, so every point is a multiple of `G`. -/
namespace Secp256k1
open SecpLib

theorem nonsing_onCurve {x y : F} (h : W.Nonsingular x y) : OnCurve (some (x.val, y.val)) := by
  rw [onCurve_some]
  refine ⟨ZMod.val_lt x, ZMod.val_lt y, ?_⟩
  rw [ZMod.natCast_zmod_val, ZMod.natCast_zmod_val]; exact h

theorem ordinate_ne_zero {x y : F} (h : W.Nonsingular x y) : y ≠ 0 := by
  rintro rfl
  have := nonsing_onCurve h
  rw [ZMod.val_zero] at this
  exact no_zero_ordinate this

/-- Every point of Mathlib's group is one of ours. -/
theorem toPoint_surj (T : W.Point) : ∃ P, OnCurve P ∧ toPoint P = T := by
  cases T with
  | zero => exact ⟨none, trivial, rfl⟩
  | some x y h =>
    refine ⟨some (x.val, y.val), nonsing_onCurve h, ?_⟩
    have h' : W.Nonsingular ((x.val : Nat) : F) ((y.val : Nat) : F) := by
      rw [ZMod.natCast_zmod_val, ZMod.natCast_zmod_val]; exact h
    rw [toPoint_some h']
    simp only [ZMod.natCast_zmod_val]

theorem no_two_torsion (T : W.Point) (h : T + T = 0) : T = 0 := by
  obtain ⟨P, hP, rfl⟩ := toPoint_surj T
  have hn : toPoint P = toPoint (neg P) := by
    rw [(neg_spec hP).2]; exact eq_neg_of_add_eq_zero_left h
  have := toPoint_inj hP (neg_spec hP).1 hn
  match P with
  | none => rfl
  | some (x, y) =>
    exfalso
    rw [neg, Option.some.injEq, Prod.mk.injEq] at this
    have hy : y ≠ 0 := by
      rintro rfl; exact no_zero_ordinate hP
    have hlt := (onCurve_some.1 hP).2.1
    obtain ⟨h1, h2⟩ := neg_parity hlt hy
    have := this.2
    rw [h1] at this
    omega

/-- A point is determined by its abscissa and the parity of its ordinate. -/
noncomputable def code : W.Point → Option (F × Bool)
  | .zero => none
  | .some x y _ => some (x, decide (y.val % 2 = 1))

theorem code_inj : Function.Injective code := by
  intro S T h
  cases S with
  | zero =>
    cases T with
    | zero => rfl
    | some x y hT => cases h
  | some x y hS =>
    cases T with
    | zero => cases h
    | some x' y' hT =>
      simp only [code, Option.some.injEq, Prod.mk.injEq, decide_eq_decide] at h
      obtain ⟨rfl, hp⟩ := h
      have h1 := (nonsingular_W _ _).1 hS
      have h2 := (nonsingular_W _ _).1 hT
      have hsq : y ^ 2 = y' ^ 2 := by linear_combination h1 - h2
      have hy : y = y' := by
        rcases sq_eq_sq_iff_eq_or_eq_neg.1 hsq with h | h
        · exact h
        · exfalso
          have h0 := ordinate_ne_zero hT
          have hv : y.val = p - y'.val := by
            rw [h, ZMod.neg_val, if_neg h0]
          have hlt := ZMod.val_lt y'
          have := p_odd
          have h0' : y'.val ≠ 0 := by rwa [Ne, ZMod.val_eq_zero]
          omega
      subst hy
      rfl

instance : Finite W.Point := Finite.of_injective code code_inj

theorem card_le : Nat.card W.Point ≤ 2 * p + 1 := by
  have h := Nat.card_le_card_of_injective code code_inj
  have : Nat.card (Option (F × Bool)) = 2 * p + 1 := by
    rw [Nat.card_eq_fintype_card, Fintype.card_option, Fintype.card_prod, ZMod.card, Fintype.card_bool]; omega
  omega

theorem n_nsmul (T : W.Point) : n • T = 0 := by
  have hd : n ∣ Nat.card W.Point := by
    have : addOrderOf (toPoint G) = n := addOrderOf_eq_prime n_nsmul_G toPoint_G_ne
    rw [← this]; exact addOrderOf_dvd_natCard _
  obtain ⟨m, hm⟩ := hd
  have hpos : 0 < Nat.card W.Point := Nat.card_pos
  have hle := card_le
  have hm3 : m < 3 := by
    by_contra hc
    have : n * 3 ≤ n * m := Nat.mul_le_mul_left n (by omega)
    have h3 : 2 * p + 1 < n * 3 := by decide +kernel
    omega
  have hcard : Nat.card W.Point • T = 0 := card_nsmul_eq_zero'
  rcases (by omega : m = 0 ∨ m = 1 ∨ m = 2) with h | h | h
  · rw [h] at hm; omega
  · rw [h, Nat.mul_one] at hm; rw [← hm]; exact hcard
  · apply no_two_torsion
    rw [← two_nsmul, ← mul_nsmul', Nat.mul_comm, ← h, ← hm]; exact hcard

theorem card_eq : Nat.card W.Point = n := by
  have hd : n ∣ Nat.card W.Point := by
    have : addOrderOf (toPoint G) = n := addOrderOf_eq_prime n_nsmul_G toPoint_G_ne
    rw [← this]; exact addOrderOf_dvd_natCard _
  obtain ⟨m, hm⟩ := hd
  have hpos : 0 < Nat.card W.Point := Nat.card_pos
  have hle := card_le
  have hm3 : m < 3 := by
    by_contra hc
    have : n * 3 ≤ n * m := Nat.mul_le_mul_left n (by omega)
    have h3 : 2 * p + 1 < n * 3 := by decide +kernel
    omega
  rcases (by omega : m = 0 ∨ m = 1 ∨ m = 2) with h | h | h
  · rw [h] at hm; omega
  · rw [h, Nat.mul_one] at hm; exact hm
  · exfalso
    obtain ⟨T, hT⟩ := exists_prime_addOrderOf_dvd_card' (G := W.Point) 2 (by rw [hm, h]; exact Dvd.intro_left n rfl)
    have h2 : T + T = 0 := by rw [← two_nsmul, ← hT]; exact addOrderOf_nsmul_eq_zero T
    rw [no_two_torsion T h2, addOrderOf_zero] at hT
    omega

end Secp256k1
