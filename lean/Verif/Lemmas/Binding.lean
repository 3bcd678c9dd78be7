import Verif.Lemmas.Ecdsa
/-! Which keys, hashes and numbers `s` go together with one `r` in ECDSA verification. -/
namespace Secp256k1
open SecpLib

theorem order_of_ne_zero {T : W.Point} (h : T ≠ 0) : addOrderOf T = n := addOrderOf_eq_prime (n_nsmul T) h

theorem nsmul_cancel {T : W.Point} (h : T ≠ 0) {a b : Nat} (e : a • T = b • T) : a % n = b % n := by
  have := nsmul_eq_nsmul_iff_modEq.1 e
  rw [order_of_ne_zero h] at this
  exact this

theorem nsmul_inj {S T : W.Point} {c : Nat} (h0 : 0 < c) (hc : c < n) (e : c • S = c • T) : S = T := by
  have hi : ∀ U : W.Point, invMod n c • c • U = U := by
    intro U
    rw [← mul_nsmul']
    have : ((invMod n c * c : Nat) : ZMod n) = ((1 : Nat) : ZMod n) := by
      push_cast
      rw [inv_cast, inv_mul_cancel₀ (cast_ne_zero h0 hc)]
    rw [nsmul_congr this, one_nsmul]
  rw [← hi S, e, hi T]

theorem neg_some {x y y' : Nat} (h : OnCurve (some (x, y))) (h' : OnCurve (some (x, y'))) :
    toPoint (some (x, y')) = toPoint (some (x, y)) ∨ toPoint (some (x, y')) = -toPoint (some (x, y)) := by
  obtain ⟨a1, a2, a3⟩ := onCurve_some.1 h
  obtain ⟨b1, b2, b3⟩ := onCurve_some.1 h'
  have e1 := (nonsingular_W _ _).1 a3
  have e2 := (nonsingular_W _ _).1 b3
  have : ((y' : F) - y) * ((y' : F) + y) = 0 := by linear_combination e2 - e1
  rcases mul_eq_zero.1 this with hz | hz
  · left
    have : (y' : F) = y := sub_eq_zero.1 hz
    rw [(cast_inj b2 a2).1 this]
  · right
    rw [← (neg_spec h).2]
    congr 1
    rw [neg]
    have hn : ((((p - y) % p : Nat)) : F) = (y' : F) := by
      rw [ZMod.natCast_mod, cast_psub a2]
      linear_combination -hz
    rw [(cast_inj (Nat.mod_lt _ p_pos) b2).1 hn]

/-- The point of an accepted signature: `s · R = z · G + r · Q`, and the abscissa of `R` is `r` modulo `n`. -/
theorem verify_true_iff {Q : Pt} (hQ : OnCurve Q) (z r s : Nat) : verify Q z r s = true ↔
    (0 < r ∧ r < n ∧ 0 < s ∧ s < n) ∧ ∃ x y, OnCurve (some (x, y)) ∧ x % n = r ∧
      s • toPoint (some (x, y)) = z • toPoint G + r • toPoint Q := by
  have hc := vpoint_spec hQ z r (invMod n s)
  rw [verify_eq]
  generalize vpoint Q z r (invMod n s) = A at hc ⊢
  by_cases hr : 0 < r ∧ r < n ∧ 0 < s ∧ s < n
  · rw [if_pos hr]
    have hs := cast_ne_zero hr.2.2.1 hr.2.2.2
    have hw : ∀ (a : Nat) (T : W.Point), s • (a * invMod n s) • T = a • T := by
      intro a T
      rw [← mul_nsmul']
      apply nsmul_congr
      push_cast
      rw [inv_cast]
      field_simp
    have hsA : s • toPoint A = z • toPoint G + r • toPoint Q := by
      rw [hc.2, nsmul_add, hw, hw]
    constructor
    · intro h
      refine ⟨hr, ?_⟩
      cases A with
      | none => simp at h
      | some xy => exact ⟨xy.1, xy.2, hc.1, by simpa using h, hsA⟩
    · rintro ⟨-, x, y, h1, h2, h3⟩
      have : A = some (x, y) := toPoint_inj hc.1 h1 (nsmul_inj hr.2.2.1 hr.2.2.2 (hsA.trans h3.symm))
      rw [this]
      simpa using h2
  · rw [if_neg hr]
    constructor
    · intro h; cases h
    · rintro ⟨h, -⟩; exact absurd h hr

theorem some_ne_zero {x y : Nat} (h : OnCurve (some (x, y))) : toPoint (some (x, y)) ≠ 0 := by
  intro e
  have := (toPoint_eq_zero h).1 e
  cases this

/-- Abscissas that are `r` modulo `n`. -/
theorem abscissa {x r : Nat} (hx : x < p) (h : x % n = r) : x = r ∨ (x = r + n ∧ r + n < p) := by
  have h2 : p < 2 * n := by decide +kernel
  have := Nat.div_add_mod x n
  have hd : x / n < 2 := Nat.div_lt_of_lt_mul (by omega)
  rw [h] at this
  generalize x / n = q at this hd
  rcases (by omega : q = 0 ∨ q = 1) with e | e
  · rw [e] at this; left; omega
  · rw [e] at this; right; omega

/-- The points that can be meant by `r`: two, or four if `r + n` is an abscissa too. -/
theorem candidates (r : Nat) : ∃ L : List W.Point, L.length ≤ (if r + n < p then 4 else 2) ∧
    ∀ x y, OnCurve (some (x, y)) → x % n = r → toPoint (some (x, y)) ∈ L := by
  have one : ∀ x, ∃ L : List W.Point, L.length ≤ 2 ∧ ∀ y, OnCurve (some (x, y)) → toPoint (some (x, y)) ∈ L := by
    intro x
    by_cases h : ∃ y, OnCurve (some (x, y))
    · obtain ⟨y, hy⟩ := h
      refine ⟨[toPoint (some (x, y)), -toPoint (some (x, y))], by simp, fun y' hy' => ?_⟩
      rcases neg_some hy hy' with e | e <;> simp [e]
    · exact ⟨[], by simp, fun y hy => absurd ⟨y, hy⟩ h⟩
  obtain ⟨L1, l1, m1⟩ := one r
  obtain ⟨L2, l2, m2⟩ := one (r + n)
  by_cases hp : r + n < p
  · refine ⟨L1 ++ L2, by rw [if_pos hp, List.length_append]; omega, fun x y h hx => ?_⟩
    rcases abscissa (onCurve_some.1 h).1 hx with rfl | ⟨rfl, -⟩
    · exact List.mem_append.2 (.inl (m1 y h))
    · exact List.mem_append.2 (.inr (m2 y h))
  · refine ⟨L1, by rw [if_neg hp]; exact l1, fun x y h hx => ?_⟩
    rcases abscissa (onCurve_some.1 h).1 hx with rfl | ⟨-, h'⟩
    · exact m1 y h
    · exact absurd h' hp

/-- Things that are determined by a point that can be meant by `r` are as few. -/
theorem few {α : Type} (r : Nat) (Ok : α → W.Point → Prop) (hinj : ∀ a b T, Ok a T → Ok b T → a = b) :
    ∃ L : List α, L.length ≤ (if r + n < p then 4 else 2) ∧
      ∀ a x y, OnCurve (some (x, y)) → x % n = r → Ok a (toPoint (some (x, y))) → a ∈ L := by
  classical
  obtain ⟨L, hl, hm⟩ := candidates r
  refine ⟨L.filterMap fun T => if h : ∃ a, Ok a T then some h.choose else none, ?_, ?_⟩
  · exact Nat.le_trans (List.length_filterMap_le _ _) hl
  · intro a x y h hx ha
    refine List.mem_filterMap.2 ⟨_, hm x y h hx, ?_⟩
    have he : ∃ a, Ok a (toPoint (some (x, y))) := ⟨a, ha⟩
    rw [dif_pos he, hinj _ _ _ he.choose_spec ha]

end Secp256k1
