import Verif.Lemmas.BaseN
/-! Writing digits again that were read as bytes. -/
namespace BaseN

theorem bits_of_bytes (l : List Bool) (m : Nat) (h : l.length = m * 8) :
    (((chunksOf 8 l).filter fun g => g.length = 8).map fun g => BitVec.ofNat 8 (numOf g)).flatMap
      (fun b : Byte => bitsOf 8 b.toNat) = l := by
  induction m generalizing l with
  | zero => have : l = [] := by simpa using h
            subst this; rfl
  | succ m ih =>
    have hl : (l.take 8).length = 8 := by rw [List.length_take]; omega
    have hc := chunksOf_append_one 8 (l.take 8) (l.drop 8) (by omega) hl
    rw [List.take_append_drop] at hc
    rw [hc, List.filter_cons, if_pos (by simp [hl]), List.map_cons, List.flatMap_cons, ih _ (by rw [List.length_drop]; omega)]
    have hn : (BitVec.ofNat 8 (numOf (l.take 8))).toNat = numOf (l.take 8) := by
      have := numOf_lt (l.take 8)
      rw [hl] at this
      rw [BitVec.toNat_ofNat, Nat.mod_eq_of_lt this]
    have hb := bitsOf_numOf (l.take 8)
    rw [hl] at hb
    rw [hn, hb, List.take_append_drop]

/-- The bits of the bytes that are read are the complete groups of eight bits of the digits. -/
theorem bits_of_bytesOf (k m r : Nat) (ds : List Nat) (h : k * ds.length = m * 8 + r) (hr : r < 8) :
    (bytesOf k ds).flatMap (fun b => bitsOf 8 b.toNat) = (ds.flatMap fun d => bitsOf k d).take (m * 8) := by
  generalize hL : (ds.flatMap fun d => bitsOf k d) = L
  have hlen : L.length = m * 8 + r := by rw [← hL, bitsk_length, h]
  have hA : (L.take (m * 8)).length = m * 8 := by rw [List.length_take]; omega
  have hB : (L.drop (m * 8)).length = r := by rw [List.length_drop]; omega
  rw [bytesOf, hL]
  have hc := chunksOf_append 8 m (L.take (m * 8)) (L.drop (m * 8)) (by omega) hA
  rw [List.take_append_drop] at hc
  rw [hc, List.filter_append]
  have hf : (chunksOf 8 (L.drop (m * 8))).filter (fun g => g.length = 8) = [] := by
    by_cases h0 : L.drop (m * 8) = []
    · rw [h0]; rfl
    · rw [chunksOf_short 8 _ h0 (by omega), List.filter_cons, if_neg (by simp only [hB]; simp; omega)]; rfl
  rw [hf, List.append_nil, bits_of_bytes _ m hA]

theorem chunks_digits (k : Nat) (ds : List Nat) (l : List Bool) (hk : 0 < k) (hd : ∀ d ∈ ds, d < 2 ^ k) :
    (chunksOf k ((ds.flatMap fun d => bitsOf k d) ++ l)).map (fun g => numOf (zeroFill k g)) =
      ds ++ (chunksOf k l).map (fun g => numOf (zeroFill k g)) := by
  induction ds with
  | nil => rfl
  | cons d ds ih =>
    rw [List.flatMap_cons, List.append_assoc, chunksOf_append_one k _ _ hk (bitsOf_length k d), List.map_cons,
      ih (fun e he => hd e (by simp [he])), List.cons_append]
    congr 1
    rw [zeroFill, bitsOf_length, Nat.sub_self, List.replicate_zero, List.append_nil, numOf_bitsOf k d (hd d (by simp))]

theorem numOf_append (l : List Bool) (r : Nat) : numOf (l ++ List.replicate r false) = numOf l * 2 ^ r := by
  induction r with
  | zero => simp
  | succ r ih =>
    rw [List.replicate_succ', ← List.append_assoc, numOf_append_one, ih, Nat.pow_succ]
    simp only [Bool.toNat_false, Nat.add_zero]
    rw [Nat.mul_comm 2, Nat.mul_assoc]

theorem bitsOf_take (k r d : Nat) : (bitsOf (k + r) d).take k = bitsOf k (d / 2 ^ r) := by
  induction r generalizing d with
  | zero => rw [Nat.add_zero, Nat.pow_zero, Nat.div_one, List.take_of_length_le (Nat.le_of_eq (bitsOf_length k d))]
  | succ r ih =>
    rw [← Nat.add_assoc, bitsOf_succ, List.take_append_of_le_length (by rw [bitsOf_length]; omega), ih, Nat.div_div_eq_div_mul,
      Nat.pow_succ, Nat.mul_comm]

theorem digitsOf_bytesOf (k m r : Nat) (ds : List Nat) (d : Nat) (hk : 0 < k) (h : k * (ds.length + 1) = m * 8 + r) (hr : r < 8)
    (hrk : r < k) (hd : ∀ x ∈ ds, x < 2 ^ k) (hl : d < 2 ^ k) :
    digitsOf k (bytesOf k (ds ++ [d])) = ds ++ [d / 2 ^ r * 2 ^ r] := by
  rw [digitsOf, bits_of_bytesOf k m r _ (by rw [List.length_append]; exact h) hr, List.flatMap_append]
  have hl1 : (ds.flatMap fun d => bitsOf k d).length = k * ds.length := bitsk_length k ds
  rw [Nat.mul_add, Nat.mul_one] at h
  have ht : ((ds.flatMap fun d => bitsOf k d) ++ [d].flatMap fun d => bitsOf k d).take (m * 8) =
      (ds.flatMap fun d => bitsOf k d) ++ bitsOf (k - r) (d / 2 ^ r) := by
    rw [List.take_append, List.take_of_length_le (by omega)]
    congr 1
    have := bitsOf_take (k - r) r d
    rw [show k - r + r = k by omega] at this
    rw [hl1, show m * 8 - k * ds.length = k - r by omega, List.flatMap_cons, List.flatMap_nil, List.append_nil, this]
  rw [ht, chunks_digits k ds _ hk hd, chunksOf_short k _ (by
    intro e
    have := congrArg List.length e
    rw [bitsOf_length] at this
    simp at this; omega) (by rw [bitsOf_length]; omega)]
  congr 1
  rw [List.map_cons, List.map_nil, zeroFill, bitsOf_length, show k - (k - r) = r by omega, numOf_append, numOf_bitsOf]
  apply Nat.div_lt_of_lt_mul
  rw [← Nat.pow_add, show r + (k - r) = k by omega]; exact hl

end BaseN
