import Verif.Lemmas.Secp256k1
import Mathlib.GroupTheory.OrderOfElement
/-! The base point has order `n`. -/
namespace Secp256k1

set_option maxRecDepth 100000 in
theorem nG_none : (mul n G).isNone = true := by decide +kernel

theorem n_nsmul_G : n • toPoint G = 0 := by
  rw [← (mul_spec n_lt G_onCurve).2, Option.isNone_iff_eq_none.1 nG_none]; rfl

theorem toPoint_G_ne : toPoint G ≠ 0 := fun h =>
  absurd ((toPoint_eq_zero G_onCurve).1 h) (by decide)

theorem nsmul_G_eq_zero (k : Nat) : k • toPoint G = 0 ↔ n ∣ k := by
  have : addOrderOf (toPoint G) = n := addOrderOf_eq_prime n_nsmul_G toPoint_G_ne
  rw [← this]; exact addOrderOf_dvd_iff_nsmul_eq_zero.symm

theorem nsmul_G_mod (k : Nat) : (k % n) • toPoint G = k • toPoint G := by
  conv => rhs; rw [← Nat.div_add_mod k n, add_nsmul, mul_comm, mul_nsmul', n_nsmul_G, nsmul_zero, zero_add]

theorem nsmul_G_congr {a b : Nat} (h : a % n = b % n) : a • toPoint G = b • toPoint G := by
  rw [← nsmul_G_mod a, h, nsmul_G_mod]

theorem mul_G_eq_none {k : Nat} (hk : k < 2 ^ 256) : mul k G = none ↔ n ∣ k := by
  rw [← toPoint_eq_zero (mul_spec hk G_onCurve).1, (mul_spec hk G_onCurve).2, nsmul_G_eq_zero]

/-- `(a + b) G = a G + b G`, scalars modulo `n`. -/
theorem mul_G_add {a b : Nat} (ha : a < 2 ^ 256) (hb : b < 2 ^ 256) :
    mul ((a + b) % n) G = add (mul a G) (mul b G) := by
  have hc : (a + b) % n < 2 ^ 256 := lt_trans (Nat.mod_lt _ n_pos) n_lt
  obtain ⟨h1, h2⟩ := mul_spec ha G_onCurve
  obtain ⟨h3, h4⟩ := mul_spec hb G_onCurve
  obtain ⟨h5, h6⟩ := mul_spec hc G_onCurve
  obtain ⟨h7, h8⟩ := add_spec h1 h3
  refine toPoint_inj h5 h7 ?_
  rw [h6, h8, h2, h4, nsmul_G_mod, add_nsmul]

/-- Scalars are determined by their points. -/
theorem mul_G_inj {a b : Nat} (ha : a < n) (hb : b < n) (h : mul a G = mul b G) : a = b := by
  have h' : a • toPoint G = b • toPoint G := by
    rw [← (mul_spec (lt_trans ha n_lt) G_onCurve).2, h, (mul_spec (lt_trans hb n_lt) G_onCurve).2]
  rcases Nat.le_total a b with hab | hab
  · have : (b - a) • toPoint G = 0 := by
      have e : b • toPoint G = (b - a) • toPoint G + a • toPoint G := by
        rw [← add_nsmul, Nat.sub_add_cancel hab]
      rw [h'] at e
      exact left_eq_add.1 (e.trans (_root_.add_comm _ _)) 
    rw [nsmul_G_eq_zero] at this
    rcases Nat.eq_zero_or_pos (b - a) with h0 | h0
    · omega
    · exact absurd (Nat.le_of_dvd h0 this) (by omega)
  · have : (a - b) • toPoint G = 0 := by
      have e : a • toPoint G = (a - b) • toPoint G + b • toPoint G := by
        rw [← add_nsmul, Nat.sub_add_cancel hab]
      rw [h'] at e
      exact left_eq_add.1 (e.trans (_root_.add_comm _ _)) 
    rw [nsmul_G_eq_zero] at this
    rcases Nat.eq_zero_or_pos (a - b) with h0 | h0
    · omega
    · exact absurd (Nat.le_of_dvd h0 this) (by omega)

end Secp256k1
