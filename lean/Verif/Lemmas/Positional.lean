import Verif.Spec.Base58

namespace Positional

theorem value_snoc (B : Nat) (xs : List Nat) (d : Nat) : value B (xs ++ [d]) = value B xs * B + d := by
  simp [value]

theorem snoc_induction {α : Type} {P : List α → Prop} (nil : P [])
    (snoc : ∀ xs x, P xs → P (xs ++ [x])) (l : List α) : P l := by
  have : ∀ n, ∀ l : List α, l.length = n → P l := by
    intro n
    induction n with
    | zero => intro l h; rw [List.length_eq_zero_iff.mp h]; exact nil
    | succ n ih =>
      intro l h
      have h0 : l ≠ [] := by intro h0; simp [h0] at h
      rw [← List.dropLast_concat_getLast h0]
      exact snoc _ _ (ih _ (by simp; omega))
  exact this _ l rfl

theorem value_append (B : Nat) (xs ys : List Nat) :
    value B (xs ++ ys) = value B xs * B ^ ys.length + value B ys := by
  induction ys using snoc_induction with
  | nil => simp [value]
  | snoc ys y ih =>
    rw [← List.append_assoc, value_snoc, value_snoc, ih, List.length_append, List.length_cons,
      List.length_nil, Nat.pow_succ]
    simp only [Nat.add_mul, Nat.mul_assoc]
    omega

theorem value_cons (B d : Nat) (ys : List Nat) : value B (d :: ys) = d * B ^ ys.length + value B ys := by
  have := value_append B [d] ys
  simpa [value] using this

theorem value_lt (B : Nat) (xs : List Nat) (h : ∀ x ∈ xs, x < B) : value B xs < B ^ xs.length := by
  induction xs using snoc_induction with
  | nil => simp [value]
  | snoc xs x ih =>
    have h1 := ih (fun y hy => h y (by simp [hy]))
    have h2 := h x (by simp)
    rw [value_snoc, List.length_append, List.length_cons, List.length_nil, Nat.pow_succ]
    have : (value B xs + 1) * B ≤ B ^ xs.length * B := Nat.mul_le_mul_right _ h1
    rw [Nat.add_mul] at this
    omega

theorem value_zeros (B : Nat) (xs : List Nat) (h : ∀ x ∈ xs, x = 0) : value B xs = 0 := by
  induction xs using snoc_induction with
  | nil => simp [value]
  | snoc xs x ih => rw [value_snoc, ih (fun y hy => h y (by simp [hy])), h x (by simp)]; simp

theorem digits_zero (B : Nat) : digits B 0 = [] := by rw [digits]; simp

theorem digits_pos (B n : Nat) (hB : 2 ≤ B) (hn : n ≠ 0) :
    digits B n = digits B (n / B) ++ [n % B] := by
  rw [digits, dif_neg (by omega)]

/-- Removing leading zero digits gives the canonical digits. -/
theorem dropWhile_zero_eq_digits (B : Nat) (hB : 2 ≤ B) (ds : List Nat) (h : ∀ d ∈ ds, d < B) :
    ds.dropWhile (· = 0) = digits B (value B ds) := by
  induction ds using snoc_induction with
  | nil => simp [value, digits_zero]
  | snoc ds d ih =>
    have ih := ih (fun y hy => h y (by simp [hy]))
    have hd := h d (by simp)
    rw [value_snoc, List.dropWhile_append, ih]
    by_cases hv : value B ds = 0
    · rw [hv, digits_zero]
      by_cases h0 : d = 0
      · subst h0; simp [digits_zero]
      · simp only [List.isEmpty_nil, if_true, Nat.zero_mul, Nat.zero_add]
        rw [digits_pos B d hB h0, Nat.div_eq_of_lt hd, digits_zero, Nat.mod_eq_of_lt hd]
        simp [h0]
    · have hne : digits B (value B ds) ≠ [] := by rw [digits_pos B _ hB hv]; simp
      have hmul : value B ds * B ≠ 0 := Nat.mul_ne_zero hv (by omega)
      rw [digits_pos B (value B ds * B + d) hB (by omega)]
      have h1 : (value B ds * B + d) / B = value B ds := by
        rw [Nat.mul_comm, Nat.mul_add_div (by omega), Nat.div_eq_of_lt hd]; omega
      have h2 : (value B ds * B + d) % B = d := by
        rw [Nat.mul_comm, Nat.mul_add_mod, Nat.mod_eq_of_lt hd]
      rw [h1, h2]
      simp [hne]

theorem digits_lt (B n : Nat) (hB : 2 ≤ B) : ∀ d ∈ digits B n, d < B := by
  induction n using Nat.strongRecOn with
  | ind n ih =>
    by_cases hn : n = 0
    · subst hn; simp [digits_zero]
    · rw [digits_pos B n hB hn]
      intro d hd
      rcases List.mem_append.mp hd with h | h
      · exact ih _ (Nat.div_lt_self (by omega) (by omega)) d h
      · simp at h; rw [h]; exact Nat.mod_lt _ (by omega)

theorem value_digits (B n : Nat) (hB : 2 ≤ B) : value B (digits B n) = n := by
  induction n using Nat.strongRecOn with
  | ind n ih =>
    by_cases hn : n = 0
    · subst hn; simp [digits_zero, value]
    · rw [digits_pos B n hB hn, value_snoc, ih _ (Nat.div_lt_self (by omega) (by omega)), Nat.mul_comm]
      exact Nat.div_add_mod n B

theorem digits_head_ne (B n : Nat) (hB : 2 ≤ B) : (digits B n).dropWhile (· = 0) = digits B n := by
  rw [dropWhile_zero_eq_digits B hB _ (digits_lt B n hB), value_digits B n hB]

theorem digits_head (B n : Nat) (hB : 2 ≤ B) (d : Nat) (ds : List Nat) (h : digits B n = d :: ds) :
    d ≠ 0 := by
  intro h0
  have := digits_head_ne B n hB
  rw [h, h0] at this
  simp only [decide_true, List.dropWhile_cons_of_pos] at this
  have h1 := congrArg List.length this
  have h2 := (List.dropWhile_sublist (p := fun x => decide (x = 0)) (l := ds)).length_le
  simp at h1; omega

/-- A digit string without leading zero is the canonical one of its value. -/
theorem digits_value (B : Nat) (hB : 2 ≤ B) (ds : List Nat) (h : ∀ d ∈ ds, d < B)
    (hd : ∀ d r, ds = d :: r → d ≠ 0) : digits B (value B ds) = ds := by
  rw [← dropWhile_zero_eq_digits B hB ds h]
  match ds, hd with
  | [], _ => rfl
  | d :: r, hd => rw [List.dropWhile_cons_of_neg]; simpa using hd d r rfl

theorem digits_length_le (B n k : Nat) (hB : 2 ≤ B) (h : n < B ^ k) : (digits B n).length ≤ k := by
  induction k generalizing n with
  | zero => have : n = 0 := by simpa using h
            subst this; simp [digits_zero]
  | succ k ih =>
    by_cases hn : n = 0
    · subst hn; simp [digits_zero]
    · rw [digits_pos B n hB hn]
      have := ih (n / B) (by rw [Nat.pow_succ] at h; exact Nat.div_lt_of_lt_mul (by rwa [Nat.mul_comm] at h))
      simp; omega

end Positional
