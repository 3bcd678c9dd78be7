import Verif.Lemmas.Secp256k1Primes
import Mathlib.AlgebraicGeometry.EllipticCurve.Affine.Point
import Mathlib.FieldTheory.Finite.Basic
import Mathlib.Tactic.FieldSimp
/-! secp256k1 is a group: the executable addition is the addition of Mathlib's group of points of the
Weierstrass curve `y² = x³ + 7` over `ZMod p`. -/
namespace Secp256k1

theorem p_prime : Nat.Prime p := prime_115792089237316195423570985008687907853269984665640564039457584007908834671663
theorem n_prime : Nat.Prime n := prime_115792089237316195423570985008687907852837564279074904382605163141518161494337

instance : Fact (Nat.Prime p) := ⟨p_prime⟩
instance : Fact (Nat.Prime n) := ⟨n_prime⟩

abbrev F := ZMod p

theorem invMod_cast (q : Nat) [Fact (Nat.Prime q)] (hq : q < 2 ^ 256) (h2 : 2 < q) (a : Nat) :
    ((invMod q a : Nat) : ZMod q) = (a : ZMod q)⁻¹ := by
  rw [invMod, powMod_eq q 256 a (q - 2) (by omega), ZMod.natCast_mod]
  push_cast
  by_cases h : (a : ZMod q) = 0
  · rw [h, zero_pow (by omega), inv_zero]
  · refine eq_inv_of_mul_eq_one_left ?_
    rw [← pow_succ, show q - 2 + 1 = q - 1 by omega]
    exact ZMod.pow_card_sub_one_eq_one h

theorem p_lt : p < 2 ^ 256 := by decide +kernel
theorem n_lt : n < 2 ^ 256 := by decide +kernel
theorem p_pos : 0 < p := by decide +kernel
theorem n_pos : 0 < n := by decide +kernel
theorem p_odd : p % 2 = 1 := by decide +kernel

theorem cast_p : ((p : Nat) : F) = 0 := ZMod.natCast_self p

theorem cast_inj {a b : Nat} (ha : a < p) (hb : b < p) : ((a : F) = (b : F)) ↔ a = b := by
  rw [ZMod.natCast_eq_natCast_iff', Nat.mod_eq_of_lt ha, Nat.mod_eq_of_lt hb]

theorem cast_psub {a : Nat} (ha : a < p) : ((p - a : Nat) : F) = -(a : F) := by
  rw [Nat.cast_sub ha.le, cast_p, zero_sub]

theorem mod_eq_zero_iff (a : Nat) : a % p = 0 ↔ ((a : Nat) : F) = 0 := by
  rw [ZMod.natCast_eq_zero_iff, Nat.dvd_iff_mod_eq_zero]

theorem small_ne {k : Nat} (h0 : 0 < k) (h : k < p) : ((k : Nat) : F) ≠ 0 := by
  rw [Ne, ZMod.natCast_eq_zero_iff]
  exact fun hd => absurd (Nat.le_of_dvd h0 hd) (by omega)

theorem two_ne : (2 : F) ≠ 0 := by
  have := small_ne (k := 2) (by omega) (by decide +kernel); simpa using this
theorem three_ne : (3 : F) ≠ 0 := by
  have := small_ne (k := 3) (by omega) (by decide +kernel); simpa using this
theorem seven_ne : (7 : F) ≠ 0 := by
  have := small_ne (k := 7) (by omega) (by decide +kernel); simpa using this

/-- The curve in Mathlib's sense. -/
def W : WeierstrassCurve.Affine F := ⟨0, 0, 0, 0, 7⟩

open WeierstrassCurve.Affine in
theorem equation_W (x y : F) : W.Equation x y ↔ y * y = x * x * x + 7 := by
  rw [equation_iff]
  simp only [W]
  constructor <;> intro h <;> linear_combination h

open WeierstrassCurve.Affine in
theorem nonsingular_W (x y : F) : W.Nonsingular x y ↔ y * y = x * x * x + 7 := by
  rw [nonsingular_iff, equation_W]
  simp only [W]
  constructor
  · exact fun h => h.1
  · intro h
    refine ⟨h, ?_⟩
    by_cases hy : y = 0
    · left
      have hx : x ≠ 0 := by
        rintro rfl
        rw [hy] at h
        exact seven_ne (by linear_combination -h)
      intro h'
      have h3 : (3 : F) * (x * x) = 0 := by linear_combination -h'
      rcases mul_eq_zero.1 h3 with h3 | h3
      · exact three_ne h3
      · exact hx (mul_self_eq_zero.1 h3)
    · right
      intro h'
      have h2 : (2 : F) * y = 0 := by linear_combination h'
      rcases mul_eq_zero.1 h2 with h2 | h2
      · exact two_ne h2
      · exact hy h2

theorem onCurve_some {x y : Nat} : OnCurve (some (x, y)) ↔
    x < p ∧ y < p ∧ W.Nonsingular (x : F) (y : F) := by
  rw [nonsingular_W, OnCurve]
  refine and_congr_right fun _ => and_congr_right fun _ => ?_
  rw [← ZMod.natCast_eq_natCast_iff']
  push_cast
  rfl

open Classical in
/-- The point of Mathlib's group. -/
noncomputable def toPoint : Pt → W.Point
  | none => 0
  | some (x, y) => if h : W.Nonsingular (x : F) (y : F) then .some (x : F) (y : F) h else 0

theorem toPoint_some {x y : Nat} (h : W.Nonsingular (x : F) (y : F)) :
    toPoint (some (x, y)) = .some (x : F) (y : F) h := by rw [toPoint, dif_pos h]

theorem toPoint_inj {P Q : Pt} (hP : OnCurve P) (hQ : OnCurve Q) (h : toPoint P = toPoint Q) : P = Q := by
  match P, Q with
  | none, none => rfl
  | none, some (x, y) =>
    obtain ⟨_, _, h3⟩ := onCurve_some.1 hQ
    rw [toPoint_some h3] at h
    exact absurd h.symm (WeierstrassCurve.Affine.Point.some_ne_zero h3)
  | some (x, y), none =>
    obtain ⟨_, _, h3⟩ := onCurve_some.1 hP
    rw [toPoint_some h3] at h
    exact absurd h (WeierstrassCurve.Affine.Point.some_ne_zero h3)
  | some (x, y), some (x', y') =>
    obtain ⟨h1, h2, h3⟩ := onCurve_some.1 hP
    obtain ⟨h1', h2', h3'⟩ := onCurve_some.1 hQ
    rw [toPoint_some h3, toPoint_some h3'] at h
    injection h with hx hy
    rw [(cast_inj h1 h1').1 hx, (cast_inj h2 h2').1 hy]

theorem toPoint_eq_zero {P : Pt} (hP : OnCurve P) : toPoint P = 0 ↔ P = none :=
  ⟨fun h => toPoint_inj hP (Q := none) trivial h, fun h => by rw [h]; rfl⟩

open WeierstrassCurve.Affine in
theorem chord_spec (l x1 y1 x2 : Nat) (h1 : x1 < p) (h2 : y1 < p) (h3 : x2 < p) (L : F) (hL : (l : F) = L)
    (h : W.Nonsingular (W.addX x1 x2 L) (W.addY x1 x2 y1 L)) :
    OnCurve (chord l x1 y1 x2) ∧ toPoint (chord l x1 y1 x2) = .some _ _ h := by
  subst hL
  have hx : (((l * l + (p - x1) + (p - x2)) % p : Nat) : F) = W.addX x1 x2 l := by
    rw [ZMod.natCast_mod]
    push_cast
    rw [cast_psub h1, cast_psub h3, addX]
    simp only [W]; ring
  have hy : (((l * (x1 + (p - (l * l + (p - x1) + (p - x2)) % p)) + (p - y1)) % p : Nat) : F) =
      W.addY x1 x2 y1 l := by
    rw [ZMod.natCast_mod]
    push_cast
    rw [cast_psub h2, cast_psub (Nat.mod_lt _ p_pos), hx, addY, negAddY, negY]
    simp only [W]; ring
  have key : OnCurve (chord l x1 y1 x2) := by
    rw [chord, onCurve_some]
    refine ⟨Nat.mod_lt _ p_pos, Nat.mod_lt _ p_pos, ?_⟩
    rw [hx, hy]; exact h
  refine ⟨key, ?_⟩
  rw [chord, onCurve_some] at key
  rw [chord, toPoint_some key.2.2]
  congr 1

open WeierstrassCurve.Affine in
theorem add_spec {P Q : Pt} (hP : OnCurve P) (hQ : OnCurve Q) :
    OnCurve (add P Q) ∧ toPoint (add P Q) = toPoint P + toPoint Q := by
  match P, Q with
  | none, Q => exact ⟨hQ, by simp [add, toPoint]⟩
  | some P, none => exact ⟨hP, by show toPoint (some P) = _ + toPoint none; simp [toPoint]⟩
  | some (x1, y1), some (x2, y2) =>
    obtain ⟨h1, h2, h3⟩ := onCurve_some.1 hP
    obtain ⟨h1', h2', h3'⟩ := onCurve_some.1 hQ
    have hneg : ∀ x y : F, W.negY x y = -y := by intro x y; rw [negY]; simp [W]
    rw [add, toPoint_some h3, toPoint_some h3']
    by_cases hx : x1 = x2
    · subst hx
      rw [if_pos rfl]
      by_cases hy : (y1 + y2) % p = 0
      · rw [if_pos hy]
        refine ⟨trivial, ?_⟩
        rw [mod_eq_zero_iff] at hy
        push_cast at hy
        rw [Point.add_of_Y_eq rfl (by rw [hneg]; linear_combination hy)]
        rfl
      · rw [if_neg hy]
        rw [mod_eq_zero_iff] at hy
        push_cast at hy
        have hyne : (y1 : F) ≠ W.negY x1 y2 := by
          rw [hneg]; intro h; exact hy (by rw [h]; ring)
        rw [Point.add_some (fun h => hyne h.2)]
        apply chord_spec _ _ _ _ h1 h2 h1'
        rw [slope_of_Y_ne rfl hyne, ZMod.natCast_mod]
        push_cast
        rw [invMod_cast p p_lt (by decide +kernel), ZMod.natCast_mod, hneg]
        simp only [W]
        push_cast
        rw [div_eq_mul_inv]
        congr 1
        · ring
        · congr 1; ring
    · rw [if_neg hx]
      have hxne : (x1 : F) ≠ (x2 : F) := fun h => hx ((cast_inj h1 h1').1 h)
      rw [Point.add_some (fun h => hxne h.1)]
      apply chord_spec _ _ _ _ h1 h2 h1'
      rw [slope_of_X_ne hxne, ZMod.natCast_mod]
      push_cast
      rw [invMod_cast p p_lt (by decide +kernel), ZMod.natCast_mod]
      push_cast
      rw [cast_psub h2, cast_psub h1, div_eq_mul_inv, ← sub_eq_add_neg, ← sub_eq_add_neg,
        ← neg_sub (x1 : F) x2, ← neg_sub (y1 : F) y2, inv_neg]
      ring

theorem neg_spec {P : Pt} (hP : OnCurve P) : OnCurve (neg P) ∧ toPoint (neg P) = -toPoint P := by
  match P with
  | none => exact ⟨trivial, by simp [neg, toPoint]⟩
  | some (x, y) =>
    obtain ⟨h1, h2, h3⟩ := onCurve_some.1 hP
    have hy : (((p - y) % p : Nat) : F) = W.negY x y := by
      rw [ZMod.natCast_mod, cast_psub h2, WeierstrassCurve.Affine.negY]; simp [W]
    have h4 : W.Nonsingular (x : F) (((p - y) % p : Nat) : F) := by
      rw [hy]; exact (WeierstrassCurve.Affine.nonsingular_neg _ _).2 h3
    refine ⟨onCurve_some.2 ⟨h1, Nat.mod_lt _ p_pos, h4⟩, ?_⟩
    rw [neg, toPoint_some h4, toPoint_some h3, WeierstrassCurve.Affine.Point.neg_some]
    congr 1

theorem mulAux_spec : ∀ (f k : Nat) {P : Pt}, k < 2 ^ f → OnCurve P →
    OnCurve (mulAux f k P) ∧ toPoint (mulAux f k P) = k • toPoint P
  | 0, k, P, hk, hP => by
    have : k = 0 := by simpa using hk
    subst this
    exact ⟨trivial, by rw [zero_nsmul]; rfl⟩
  | f+1, k, P, hk, hP => by
    have hd := add_spec hP hP
    have ih := mulAux_spec f (k / 2) (by rw [Nat.pow_succ] at hk; omega) hd.1
    rw [mulAux]
    by_cases h0 : k = 0
    · rw [if_pos h0, h0]; exact ⟨trivial, by rw [zero_nsmul]; rfl⟩
    rw [if_neg h0]
    have e : (k / 2) • toPoint (add P P) = (2 * (k / 2)) • toPoint P := by
      rw [hd.2, ← two_nsmul, ← mul_nsmul']; rw [mul_comm]
    by_cases h1 : k % 2 = 1
    · rw [if_pos h1]
      have h := add_spec hP ih.1
      refine ⟨h.1, ?_⟩
      rw [h.2, ih.2, e]
      conv => rhs; rw [show k = 2 * (k / 2) + 1 by omega, add_nsmul, one_nsmul]
      rw [_root_.add_comm]
    · rw [if_neg h1]
      refine ⟨ih.1, ?_⟩
      rw [ih.2, e]
      congr 1; omega

theorem mul_spec {k : Nat} {P : Pt} (hk : k < 2 ^ 256) (hP : OnCurve P) :
    OnCurve (mul k P) ∧ toPoint (mul k P) = k • toPoint P := mulAux_spec 256 k hk hP

theorem G_onCurve : OnCurve G := by decide +kernel

end Secp256k1
