import Verif.Lemmas.CurveOrder
/-! ECDSA: a signature verifies, and so does the one with `n - s`. -/
namespace Secp256k1
open SecpLib

theorem nsmul_mod (k : Nat) (T : W.Point) : (k % n) • T = k • T := by
  conv => rhs; rw [← Nat.div_add_mod k n, add_nsmul, mul_comm, mul_nsmul', n_nsmul, nsmul_zero, zero_add]

theorem nsmul_congr {a b : Nat} (h : (a : ZMod n) = (b : ZMod n)) (T : W.Point) : a • T = b • T := by
  rw [← nsmul_mod a, (ZMod.natCast_eq_natCast_iff' a b n).1 h, nsmul_mod]

theorem inv_cast (a : Nat) : ((invMod n a : Nat) : ZMod n) = (a : ZMod n)⁻¹ := invMod_cast n n_lt (by decide +kernel) a

theorem cast_ne_zero {s : Nat} (h0 : 0 < s) (h : s < n) : (s : ZMod n) ≠ 0 := by
  rw [Ne, ZMod.natCast_eq_zero_iff]
  exact fun hd => absurd (Nat.le_of_dvd h0 hd) (by omega)

theorem lt_of_mod (a : Nat) : a % n < 2 ^ 256 := lt_trans (Nat.mod_lt _ n_pos) n_lt

theorem comb {Q : Pt} (hQ : OnCurve Q) (a b : Nat) (ha : a < 2 ^ 256) (hb : b < 2 ^ 256) :
    OnCurve (add (mul a G) (mul b Q)) ∧ toPoint (add (mul a G) (mul b Q)) = a • toPoint G + b • toPoint Q := by
  have h1 := mul_spec (P := G) ha G_onCurve
  have h3 := mul_spec (P := Q) hb hQ
  generalize mul a G = A at h1 ⊢
  generalize mul b Q = B at h3 ⊢
  have h5 := add_spec h1.1 h3.1
  exact ⟨h5.1, by rw [h5.2, h1.2, h3.2]⟩

/-- The point computed in verification. -/
def vpoint (Q : Pt) (z r w : Nat) : Pt := add (mul (z * w % n) G) (mul (r * w % n) Q)

/-- The point computed in verification, as an element of the group. -/
theorem vpoint_spec {Q : Pt} (hQ : OnCurve Q) (z r w : Nat) :
    OnCurve (vpoint Q z r w) ∧ toPoint (vpoint Q z r w) = (z * w) • toPoint G + (r * w) • toPoint Q := by
  have h := comb hQ _ _ (lt_of_mod (z * w)) (lt_of_mod (r * w))
  rw [nsmul_mod, nsmul_mod] at h
  exact h

theorem verify_eq (Q : Pt) (z r s : Nat) : verify Q z r s = if 0 < r ∧ r < n ∧ 0 < s ∧ s < n then
    match vpoint Q z r (invMod n s) with
    | none => false
    | some (x, _) => x % n == r
  else false := by
  unfold verify vpoint
  split_ifs with h
  · generalize add (mul (z * invMod n s % n) G) (mul (r * invMod n s % n) Q) = A
    cases A <;> rfl
  · trivial

attribute [local irreducible] vpoint

theorem verify_neg {Q : Pt} (hQ : OnCurve Q) (z r s : Nat) (h0 : 0 < s) (h : s < n) : verify Q z r (n - s) = verify Q z r s := by
  have hcast : ((n - s : Nat) : ZMod n) = -(s : ZMod n) := by
    rw [Nat.cast_sub h.le, ZMod.natCast_self, zero_sub]
  have hz : ∀ (a : Nat) (T : W.Point), (a * invMod n (n - s)) • T = -((a * invMod n s) • T) := by
    intro a T
    rw [eq_neg_iff_add_eq_zero, ← add_nsmul]
    have : ((a * invMod n (n - s) + a * invMod n s : Nat) : ZMod n) = ((0 : Nat) : ZMod n) := by
      push_cast
      rw [inv_cast, inv_cast, hcast, inv_neg]
      ring
    rw [nsmul_congr this, zero_nsmul]
  have c1 := vpoint_spec hQ z r (invMod n (n - s))
  have c2 := vpoint_spec hQ z r (invMod n s)
  rw [hz, hz, ← neg_add, ← c2.2] at c1
  rw [verify_eq, verify_eq]
  generalize vpoint Q z r (invMod n (n - s)) = A at c1 ⊢
  generalize vpoint Q z r (invMod n s) = B at c1 c2 ⊢
  have c3 := neg_spec c2.1
  have he : A = neg B := toPoint_inj c1.1 c3.1 (c1.2.trans c3.2.symm)
  subst he
  by_cases hr : 0 < r ∧ r < n
  · rw [if_pos ⟨hr.1, hr.2, by omega, by omega⟩, if_pos ⟨hr.1, hr.2, h0, h⟩]
    cases B with
    | none => rfl
    | some xy => rfl
  · rw [if_neg (fun hh => hr ⟨hh.1, hh.2.1⟩), if_neg (fun hh => hr ⟨hh.1, hh.2.1⟩)]

theorem sign_some {d z k r s : Nat} (h : sign d z k = some (r, s)) :
    ∃ x y s0, mul k G = some (x, y) ∧ r = x % n ∧ s0 = invMod n k * ((z + r * d) % n) % n ∧ r ≠ 0 ∧ s0 ≠ 0 ∧
      s = if n / 2 < s0 then n - s0 else s0 := by
  rw [sign] at h
  cases hm : mul k G with
  | none => rw [hm] at h; cases h
  | some xy =>
    obtain ⟨x, y⟩ := xy
    rw [hm] at h
    simp only at h
    by_cases hc : x % n = 0 ∨ invMod n k * ((z + x % n * d) % n) % n = 0
    · rw [if_pos hc] at h; cases h
    · rw [if_neg hc, Option.some.injEq, Prod.mk.injEq] at h
      rw [not_or] at hc
      obtain ⟨h1, h2⟩ := h
      subst h1
      exact ⟨x, y, _, rfl, rfl, rfl, hc.1, hc.2, h2.symm⟩

/-- What a signature is made of: both numbers are in range, `s` is in the lower half. -/
theorem sign_range {d z k r s : Nat} (h : sign d z k = some (r, s)) : 0 < r ∧ r < n ∧ 0 < s ∧ s ≤ n / 2 := by
  obtain ⟨x, y, s0, -, h2, h3, h4, h5, h6⟩ := sign_some h
  have hs0 : s0 < n := by rw [h3]; exact Nat.mod_lt _ n_pos
  have hr : r < n := by rw [h2]; exact Nat.mod_lt _ n_pos
  have hodd : n % 2 = 1 := by decide +kernel
  refine ⟨Nat.pos_of_ne_zero h4, hr, ?_, ?_⟩
  · rw [h6]; split <;> omega
  · rw [h6]; split <;> omega

theorem sign_verify {d z k r s : Nat} (hd : d < n) (hk0 : 0 < k) (hk : k < n)
    (h : sign d z k = some (r, s)) : verify (pub d) z r s = true := by
  obtain ⟨x, y, s0, h1, h2, h3, h4, h5, h6⟩ := sign_some h
  have hs0 : s0 < n := by rw [h3]; exact Nat.mod_lt _ n_pos
  have hs0' : 0 < s0 := Nat.pos_of_ne_zero h5
  have hr : r < n := by rw [h2]; exact Nat.mod_lt _ n_pos
  obtain ⟨hQ, hQe⟩ := mul_spec (lt_trans hd n_lt) G_onCurve
  have key : verify (pub d) z r s0 = true := by
    rw [verify_eq, if_pos ⟨Nat.pos_of_ne_zero h4, hr, hs0', hs0⟩]
    have c := vpoint_spec (Q := pub d) hQ z r (invMod n s0)
    have c2 := mul_spec (P := G) (lt_trans hk n_lt) G_onCurve
    have hp : vpoint (pub d) z r (invMod n s0) = mul k G := by
      generalize vpoint (pub d) z r (invMod n s0) = A at c ⊢
      rw [h1] at c2 ⊢
      refine toPoint_inj c.1 c2.1 (c.2.trans (Eq.trans ?_ c2.2.symm))
      have hQe' : toPoint (pub d) = d • toPoint G := hQe
      generalize toPoint (pub d) = TQ at hQe' ⊢
      generalize toPoint G = TG at hQe' ⊢
      subst hQe'
      rw [← mul_nsmul', ← add_nsmul]
      apply nsmul_congr
      have hk' := cast_ne_zero hk0 hk
      have hs' := cast_ne_zero hs0' hs0
      have hs3 : (s0 : ZMod n) = (k : ZMod n)⁻¹ * ((z : ZMod n) + (r : ZMod n) * (d : ZMod n)) := by
        rw [h3, ZMod.natCast_mod]
        push_cast
        rw [inv_cast]
        congr 1
        rw [ZMod.natCast_mod]; push_cast; rfl
      push_cast
      rw [inv_cast]
      have : (z : ZMod n) + (r : ZMod n) * (d : ZMod n) = k * s0 := by
        rw [hs3, ← mul_assoc, mul_inv_cancel₀ hk', one_mul]
      calc (z : ZMod n) * (s0 : ZMod n)⁻¹ + r * (s0 : ZMod n)⁻¹ * d = (z + r * d) * (s0 : ZMod n)⁻¹ := by ring
        _ = k := by rw [this, mul_assoc, mul_inv_cancel₀ hs', mul_one]
    rw [hp, h1]
    simp only [h2, beq_self_eq_true]
  rw [h6]
  split
  · rw [verify_neg (Q := pub d) hQ z r s0 hs0' hs0]; exact key
  · exact key

end Secp256k1
