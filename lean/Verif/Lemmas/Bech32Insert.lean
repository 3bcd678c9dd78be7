import Verif.Lemmas.Bech32Poly
/-! The Bech32 register when a symbol is inserted. -/
namespace Bech32Spec

/-- Zeros fed after `x`. -/
theorem zeros_lin (k : Nat) (x : V) : (List.replicate k 0#8).foldl step (lin x) = lin ((List.replicate k 0#8).foldl step x) := by
  induction k generalizing x with
  | zero => rfl
  | succ k ih =>
    rw [List.replicate_succ, List.foldl_cons, List.foldl_cons]
    have : ∀ y : V, step y 0#8 = lin y := by
      intro y
      rw [step_eq, show (0#8).setWidth 30 = 0#30 from by decide, BitVec.xor_zero]
    rw [this, this, ih]

theorem zeros_zero (k : Nat) : (List.replicate k 0#8).foldl step 0#30 = 0#30 := by
  induction k with
  | zero => rfl
  | succ k ih => rw [List.replicate_succ, List.foldl_cons, show step 0#30 0#8 = 0#30 from by decide, ih]

/-- A register that a symbol `c` does not change, with symbols behind it that lead to 1. -/
theorem no_insert_last : ∀ c : BitVec 8, c.toNat < 32 → step 1#30 c ≠ 1#30 := by decide +kernel

/-- The low bits of a number that equals itself shifted, but for higher bits. -/
theorem shifted_zero (W C : V) (k : Nat) (hC : ∀ i < 5 * k, C.getLsbD i = false) (h : W <<< 5 ^^^ C = W) :
    ∀ i < 5 * k, W.getLsbD i = false := by
  intro i
  induction i using Nat.strongRecOn with
  | ind i ih =>
    intro hi
    by_cases h30 : i < 30
    · have hb := congrArg (fun x : V => x.getLsbD i) h
      simp only [BitVec.getLsbD_xor, hC i hi, Bool.xor_false, BitVec.getLsbD_shiftLeft, decide_eq_true h30, Bool.true_and] at hb
      by_cases h5 : i < 5
      · rw [decide_eq_true h5] at hb
        rw [← hb]; rfl
      · rw [ih (i - 5) (by omega) (by omega), Bool.and_false] at hb
        exact hb.symm
    · exact BitVec.getLsbD_of_ge _ _ (by omega)

theorem insert_tail (P : V) (c : BitVec 8) (v : List (BitVec 8)) (hc : c.toNat < 32) (hv : ∀ x ∈ v, x.toNat < 32) (hl : v.length ≤ 5)
    (h1 : v.foldl step P = 1#30) (h2 : v.foldl step (step P c) = 1#30) :
    c = 0#8 ∧ ∃ k, v = List.replicate k 0#8 ++ [1#8] := by
  have hP : step P c = P := foldl_step_inj (h2.trans h1.symm)
  rcases Nat.eq_zero_or_pos v.length with h0 | hk
  · rw [List.length_eq_zero_iff] at h0
    rw [h0, List.foldl_nil] at h1
    rw [h1] at hP
    exact absurd hP (no_insert_last c hc)
  have e1 := foldl_step_xor v 0#30 P
  rw [BitVec.zero_xor, h1, foldl_step_zero v hv (by omega)] at e1
  -- the register `W` that `P` becomes when zeros follow
  generalize hW : (List.replicate v.length 0#8).foldl step P = W at e1
  have hpk : pack v < 2 ^ (5 * v.length) := by
    have := pack_lt v hv
    rwa [show (32 : Nat) = 2 ^ 5 from rfl, ← Nat.pow_mul] at this
  have hWV : W = BitVec.ofNat 30 (pack v) ^^^ 1#30 := by
    rw [e1, ← BitVec.xor_assoc, BitVec.xor_self, BitVec.zero_xor]
  have hhigh : ∀ i, 5 * v.length ≤ i → W.getLsbD i = false := by
    intro i hi
    rw [hWV, BitVec.getLsbD_xor, BitVec.getLsbD_ofNat, BitVec.getLsbD_ofNat,
      Nat.testBit_lt_two_pow (Nat.lt_of_lt_of_le hpk (Nat.pow_le_pow_right (by omega) hi)),
      Nat.testBit_lt_two_pow (Nat.lt_of_lt_of_le (show 1 < 2 ^ 1 by decide) (Nat.pow_le_pow_right (by omega) (show 1 ≤ i by omega)))]
    simp
  have hW25 : W.toNat < 2 ^ 25 := by
    apply Nat.lt_pow_two_of_testBit
    intro i hi
    exact hhigh i (by omega)
  have e2 : (List.replicate v.length 0#8).foldl step (step P c) = (List.replicate v.length 0#8).foldl step P := by rw [hP]
  rw [step_eq] at e2
  have e3 := foldl_step_xor (List.replicate v.length 0#8) (lin P) (c.setWidth 30)
  rw [List.length_replicate, zeros_lin, hW, lin_small W hW25] at e3
  rw [e3, hW] at e2
  have hcn : c.setWidth 30 = BitVec.ofNat 30 c.toNat := by
    apply BitVec.eq_of_toNat_eq
    rw [BitVec.toNat_setWidth, BitVec.toNat_ofNat]
  have hcz : ∀ n, (List.replicate v.length 0#8).foldl (fun n (v : BitVec 8) => 32 * n + v.toNat) n = n * 2 ^ (5 * v.length) := by
    generalize v.length = k
    induction k with
    | zero => intro n; simp
    | succ k ih =>
      intro n
      rw [List.replicate_succ, List.foldl_cons, ih, show 5 * (k + 1) = 5 * k + 5 by omega, Nat.pow_add]
      rw [show (0#8).toNat = 0 from rfl, Nat.add_zero, show (2:Nat) ^ 5 = 32 from rfl, Nat.mul_comm 32 n, Nat.mul_assoc, Nat.mul_comm 32]
  have hC : (List.replicate v.length 0#8).foldl step (c.setWidth 30) = BitVec.ofNat 30 (c.toNat * 2 ^ (5 * v.length)) := by
    rw [hcn, foldl_step_small _ (by intro x hx; rw [(List.mem_replicate.mp hx).2]; decide) c.toNat 1
      (by rw [List.length_replicate]; omega) hc, hcz]
  rw [hC] at e2
  have hlow := shifted_zero W _ v.length (by
    intro i hi
    rw [BitVec.getLsbD_ofNat, Nat.testBit_mul_two_pow]
    simp; omega) e2
  have hW0 : W = 0#30 := by
    apply BitVec.eq_of_getLsbD_eq
    intro i hi
    rw [BitVec.getLsbD_zero]
    by_cases h : i < 5 * v.length
    · exact hlow i h
    · exact hhigh i (by omega)
  constructor
  · rw [hW0, show (0#30 <<< 5 : V) = 0#30 from by decide, BitVec.zero_xor] at e2
    have e4 := congrArg BitVec.toNat e2
    rw [BitVec.toNat_ofNat, Nat.mod_eq_of_lt] at e4
    · have : c.toNat = 0 := by
        rcases Nat.mul_eq_zero.mp e4 with h | h
        · exact h
        · exact absurd h (by have := Nat.two_pow_pos (5 * v.length); omega)
      exact BitVec.eq_of_toNat_eq this
    · calc c.toNat * 2 ^ (5 * v.length) < 2 ^ 5 * 2 ^ (5 * v.length) := Nat.mul_lt_mul_of_pos_right hc (Nat.two_pow_pos _)
        _ = 2 ^ (5 + 5 * v.length) := (Nat.pow_add _ _ _).symm
        _ ≤ 2 ^ 30 := Nat.pow_le_pow_right (by omega) (by omega)
  · have hV : pack v = 1 := by
      rw [hW0] at hWV
      have := congrArg (· ^^^ 1#30) hWV
      simp only [BitVec.xor_assoc, BitVec.xor_self, BitVec.xor_zero, BitVec.zero_xor] at this
      have := congrArg BitVec.toNat this
      rw [BitVec.toNat_ofNat (pack v), Nat.mod_eq_of_lt (Nat.lt_of_lt_of_le hpk (Nat.pow_le_pow_right (by omega) (by omega)))] at this
      exact this.symm
    refine ⟨v.length - 1, pack_inj v _ hv ?_ ?_ ?_⟩
    · intro x hx
      rcases List.mem_append.mp hx with h | h
      · rw [(List.mem_replicate.mp h).2]; decide
      · rw [List.mem_singleton.mp h]; decide
    · simp; omega
    · rw [hV, pack, List.foldl_append]
      have : ∀ k, (List.replicate k 0#8).foldl (fun n (v : BitVec 8) => 32 * n + v.toNat) 0 = 0 := by
        intro k
        induction k with
        | zero => rfl
        | succ k ih => rw [List.replicate_succ, List.foldl_cons]; exact ih
      rw [this]; rfl

/-- Zeros before a final 1 do not matter. -/
theorem zeros_one (l : List (BitVec 8)) (k : Nat) (c : V) :
    (l ++ List.replicate k 0#8 ++ [1#8]).foldl step c = 1#30 ↔ (l ++ [1#8]).foldl step c = 1#30 := by
  have h0 : ∀ y : V, step y 1#8 = 1#30 ↔ y = 0#30 := by
    intro y
    rw [step_eq, show (1#8).setWidth 30 = 1#30 from by decide]
    constructor
    · intro h
      have := congrArg (· ^^^ 1#30) h
      simp only [BitVec.xor_assoc, BitVec.xor_self, BitVec.xor_zero] at this
      exact lin_eq_zero this
    · intro h
      rw [h, lin_zero, BitVec.zero_xor]
  simp only [List.foldl_append, List.foldl_cons, List.foldl_nil, h0]
  constructor
  · intro h
    rw [← zeros_zero k] at h
    exact foldl_step_inj h
  · intro h
    rw [h, zeros_zero]

end Bech32Spec
