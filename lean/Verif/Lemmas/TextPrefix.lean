import Verif.Lemmas.AddressRange
/-! How base58 texts of byte strings with a given beginning begin, and how long they are. -/
namespace TextPrefix
open Positional Base58Spec

/-- The digits of `q * B ^ k + r` are those of `q` and `k` more. -/
theorem digits_top (B q : Nat) (hB : 2 ≤ B) (hq : q ≠ 0) (k r : Nat) (hr : r < B ^ k) :
    ∃ t, digits B (q * B ^ k + r) = digits B q ++ t ∧ t.length = k := by
  induction k generalizing r with
  | zero => exact ⟨[], by rw [Nat.pow_zero, Nat.lt_one_iff] at hr; simp [hr], rfl⟩
  | succ k ih =>
    have hBp : 0 < B := by omega
    have hr' : r / B < B ^ k := by rw [Nat.div_lt_iff_lt_mul hBp, ← Nat.pow_succ]; exact hr
    obtain ⟨t, h1, h2⟩ := ih (r / B) hr'
    have hpos : 0 < q * B ^ (k + 1) := Nat.mul_pos (by omega) (Nat.pow_pos hBp)
    have e : (q * B ^ (k + 1) + r) / B = q * B ^ k + r / B := by
      rw [Nat.pow_succ, ← Nat.mul_assoc, Nat.mul_comm _ B, Nat.mul_add_div hBp]
    refine ⟨t ++ [(q * B ^ (k + 1) + r) % B], ?_, by simp [h2]⟩
    rw [digits_pos B _ hB (by omega), e, h1, List.append_assoc]

theorem number_append (xs ys : List (BitVec 8)) : number (xs ++ ys) = number xs * 256 ^ ys.length + number ys := by
  rw [number, List.map_append, value_append, List.length_map]; rfl

/-- The text of `pre ++ rest`, `pre` not beginning with a zero byte: its first characters are the digits of a number
between `lo` and `hi`, and `k` more follow. -/
theorem encode_top (pre rest : List (BitVec 8)) (lo hi k m : Nat) (hm : rest.length = m)
    (hz : (pre ++ rest).head? ≠ some 0#8) (hlo : 0 < lo) (h1 : lo * 58 ^ k ≤ number pre * 256 ^ m)
    (h2 : (number pre + 1) * 256 ^ m ≤ hi * 58 ^ k) :
    ∃ q t, lo ≤ q ∧ q < hi ∧ encode (pre ++ rest) = (digits 58 q).map char ++ t ∧ t.length = k := by
  have hlt := Base58.number_lt rest
  have hn := number_append pre rest
  rw [hm] at hlt hn
  have hp : 0 < 58 ^ k := Nat.pow_pos (by omega)
  have a1 : lo * 58 ^ k ≤ number (pre ++ rest) := by omega
  have a2 : number (pre ++ rest) < hi * 58 ^ k := by
    rw [Nat.add_mul, Nat.one_mul] at h2; omega
  have b1 : lo ≤ number (pre ++ rest) / 58 ^ k := (Nat.le_div_iff_mul_le hp).2 a1
  have b2 : number (pre ++ rest) / 58 ^ k < hi := (Nat.div_lt_iff_lt_mul hp).2 a2
  obtain ⟨t, h3, h4⟩ := digits_top 58 (number (pre ++ rest) / 58 ^ k) (by omega) (by omega) k
    (number (pre ++ rest) % 58 ^ k) (Nat.mod_lt _ hp)
  rw [Nat.mul_comm, Nat.div_add_mod] at h3
  refine ⟨_, t.map char, b1, b2, ?_, by simp [h4]⟩
  have hw : (pre ++ rest).takeWhile (· = 0#8) = [] := by
    cases hpr : pre ++ rest with
    | nil => rfl
    | cons x xs =>
      rw [hpr] at hz
      rw [List.takeWhile_cons_of_neg]
      intro hx
      apply hz
      rw [List.head?_cons, of_decide_eq_true hx]
  rw [encode, hw, h3, List.map_append]; rfl

/-- As many characters as bytes, at least. -/
theorem encode_length_ge (bs : List (BitVec 8)) : bs.length ≤ (encode bs).length := by
  obtain ⟨z, hz⟩ : ∃ z, z = (bs.takeWhile (· = 0#8)).length := ⟨_, rfl⟩
  have hsplit := List.takeWhile_append_dropWhile (p := fun x => decide (x = 0#8)) (l := bs)
  have hlen : z + (bs.dropWhile (· = 0#8)).length = bs.length := by
    rw [hz, ← List.length_append, hsplit]
  rw [encode, List.length_append, List.length_replicate, List.length_map, ← hz]
  cases hd : bs.dropWhile (· = 0#8) with
  | nil => rw [hd] at hlen; simp at hlen; omega
  | cons c r =>
    have hc : c ≠ 0#8 := by
      have := List.head?_dropWhile_not (fun x => decide (x = 0#8)) bs
      rw [hd] at this
      simpa using this
    rw [hd, List.length_cons] at hlen
    have hnum : number bs = number (c :: r) := by
      have := Base58.number_dropZeros bs
      rw [hd] at this
      exact this.symm
    have hbig : 256 ^ r.length ≤ number bs := by
      rw [hnum, number, List.map_cons, value_cons, List.length_map]
      have : 1 ≤ c.toNat := by
        rcases Nat.eq_zero_or_pos c.toNat with h | h
        · exact absurd (BitVec.eq_of_toNat_eq h) hc
        · exact h
      have := Nat.mul_le_mul_right (256 ^ r.length) this
      omega
    have hv := value_lt 58 (digits 58 (number bs)) (digits_lt 58 _ (by omega))
    rw [value_digits 58 _ (by omega)] at hv
    by_contra hcon
    have hle : (digits 58 (number bs)).length ≤ r.length := by omega
    have : 58 ^ (digits 58 (number bs)).length ≤ 256 ^ r.length :=
      Nat.le_trans (Nat.pow_le_pow_left (by omega) _) (Nat.pow_le_pow_right (by omega) hle)
    omega

theorem pow_bound (m : Nat) (h : m ≤ 24) : 256 ^ m ≤ 58 ^ (m + 9) := by
  have : ∀ m : Fin 25, 256 ^ m.1 ≤ 58 ^ (m.1 + 9) := by decide +kernel
  exact this ⟨m, by omega⟩

/-- 25 bytes with a zero byte first: at most 34 characters. -/
theorem encode_zero_length (rest : List (BitVec 8)) (h : rest.length = 24) : (encode (0#8 :: rest)).length ≤ 34 := by
  obtain ⟨z, hz⟩ : ∃ z, z = ((0#8 :: rest).takeWhile (· = 0#8)).length := ⟨_, rfl⟩
  have hz1 : 1 ≤ z := by rw [hz, List.takeWhile_cons_of_pos (by simp)]; simp
  have hsplit := List.takeWhile_append_dropWhile (p := fun x => decide (x = 0#8)) (l := 0#8 :: rest)
  have hlen : z + ((0#8 :: rest).dropWhile (· = 0#8)).length = 25 := by
    rw [hz, ← List.length_append, hsplit, List.length_cons, h]
  rw [encode, List.length_append, List.length_replicate, List.length_map, ← hz]
  have hn := Base58.number_lt ((0#8 :: rest).dropWhile (· = 0#8))
  have hnum := Base58.number_dropZeros (0#8 :: rest)
  obtain ⟨m, hm⟩ : ∃ m, m = ((0#8 :: rest).dropWhile (· = 0#8)).length := ⟨_, rfl⟩
  rw [← hm] at hn hlen
  have := digits_length_le 58 (number (0#8 :: rest)) (m + 9) (by omega) (by
    have e := pow_bound m (by omega)
    rw [hnum] at hn
    omega)
  omega

end TextPrefix
