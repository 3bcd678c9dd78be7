import Verif.Model.HashCommon
import Verif.Lemmas.Words

namespace HashCommon
open WordSpec

variable {α δ : Type}

theorem pieces_cons (n : Nat) (hn : 0 < n) (blk rest : List α) (h : blk.length = n) :
    pieces n (blk ++ rest) = blk :: pieces n rest := by
  subst h
  have hdiv : (blk.length + rest.length) / blk.length = rest.length / blk.length + 1 := by
    rw [Nat.add_div_left _ hn]
  simp only [pieces, List.length_append, hdiv, List.range_succ_eq_map, List.map_cons, List.map_map]
  congr 1
  · simp
  · apply List.map_congr_left
    intro i _
    simp only [Function.comp]
    rw [Nat.mul_succ, Nat.add_comm, ← List.drop_drop, List.drop_left]

theorem pieces_nil (n : Nat) : pieces n ([] : List α) = [] := by simp [pieces]

theorem pieces_short (n : Nat) (l : List α) (h : l.length < n) : pieces n l = [] := by
  simp [pieces, Nat.div_eq_of_lt h]

theorem pieces_append (n : Nat) (hn : 0 < n) (a b : List α) (q : Nat) (h : a.length = q * n) :
    pieces n (a ++ b) = pieces n a ++ pieces n b := by
  induction q generalizing a with
  | zero =>
    have : a = [] := List.eq_nil_of_length_eq_zero (by simpa using h)
    subst this; simp [pieces_nil]
  | succ q ih =>
    rw [Nat.succ_mul] at h
    have e : a = a.take n ++ a.drop n := (List.take_append_drop n a).symm
    have hl : (a.take n).length = n := by rw [List.length_take]; omega
    rw [e, List.append_assoc, pieces_cons n hn _ _ hl, pieces_cons n hn _ _ hl,
      ih (a.drop n) (by rw [List.length_drop]; omega), List.cons_append]

theorem pieces_single (n : Nat) (hn : 0 < n) (l : List α) (h : l.length = n) : pieces n l = [l] := by
  have := pieces_cons n hn l [] h
  rwa [List.append_nil, pieces_nil] at this

/-- Whole blocks of the message are processed in order; what is left is shorter than a block. -/
theorem blocks_eq (tr : δ → List Byte → Res δ) (f : δ → List Byte → δ) (B : Nat) (hB : 0 < B)
    (P : δ → Prop) (hP : ∀ d buf, P d → P (f d buf))
    (htr : ∀ d buf, P d → B ≤ buf.length → tr d buf = .ok (f d (buf.take B)))
    (fuel : Nat) (d : δ) (hd : P d) (buf : List Byte) (n : Nat) (hf : n < fuel) (hn : n ≤ buf.length) :
    blocks tr B fuel d buf n =
      .ok ((pieces B (buf.take n)).foldl f d, buf.drop (n / B * B), n % B) := by
  induction fuel generalizing d buf n with
  | zero => omega
  | succ fuel ih =>
    rw [blocks]
    by_cases h : n ≥ B
    · rw [if_pos h, htr d buf hd (by omega), Res.ok_bind,
        ih _ (hP _ _ hd) _ _ (by omega) (by rw [List.length_drop]; omega)]
      have hdiv : n / B = (n - B) / B + 1 := by
        conv => lhs; rw [show n = (n - B) + B by omega]
        rw [Nat.add_div_right _ hB]
      have hmod : (n - B) % B = n % B := by
        conv => rhs; rw [show n = (n - B) + B by omega]
        rw [Nat.add_mod_right]
      have e : buf.take n = buf.take B ++ (buf.drop B).take (n - B) := by
        conv => lhs; rw [show n = B + (n - B) by omega]
        rw [List.take_add]
      rw [e, pieces_cons B hB _ _ (by rw [List.length_take]; omega), List.foldl_cons,
        List.drop_drop, hmod, hdiv, Nat.succ_mul, Nat.add_comm B]
    · rw [if_neg h, pieces_short B _ (by rw [List.length_take]; omega),
        Nat.div_eq_of_lt (by omega), Nat.mod_eq_of_lt (by omega)]
      simp

/-- Number of zero bytes the code puts between `80` and the eight length bytes. -/
def zeroCount (B thr n : Nat) : Nat := if n % B ≤ thr then B - 9 - n % B else 2 * B - 9 - n % B

theorem finish_eq (tr : δ → List Byte → Res δ) (f : δ → List Byte → δ) (B thr : Nat)
    (hB : thr + 9 ≤ B) (P : δ → Prop) (hP : ∀ d buf, P d → P (f d buf))
    (htr : ∀ d buf, P d → B ≤ buf.length → tr d buf = .ok (f d (buf.take B)))
    (ce : List Byte) (hce : ce.length = 8) (d : δ) (hd : P d) (msg : List Byte) (n : Nat)
    (hn : n ≤ msg.length) :
    finish tr B thr ce d msg n =
      .ok ((pieces B (msg.take n ++ [0x80#8] ++ List.replicate (zeroCount B thr n) 0#8 ++ ce)).foldl
        f d) := by
  have hBp : 0 < B := by omega
  have hr : n % B < B := Nat.mod_lt _ hBp
  have hdm : n / B * B + n % B = n := by rw [Nat.mul_comm]; exact Nat.div_add_mod n B
  -- the rest of the message
  have hsplit : msg.take n = msg.take (n / B * B) ++ (msg.drop (n / B * B)).take (n % B) := by
    conv => lhs; rw [← hdm]
    rw [List.take_add]
  rw [finish, blocks_eq tr f B hBp P hP htr _ _ hd _ _ (by omega) hn]
  simp only [Res.ok_bind]
  have hplen : (msg.take (n / B * B)).length = n / B * B := by rw [List.length_take]; omega
  have hfull : pieces B (msg.take n) = pieces B (msg.take (n / B * B)) := by
    rw [hsplit, pieces_append B hBp _ _ _ hplen, pieces_short B ((msg.drop _).take _)
      (by rw [List.length_take]; omega), List.append_nil]
  rw [hfull, hsplit, List.append_assoc, List.append_assoc, List.append_assoc,
    pieces_append B hBp _ _ _ hplen, List.foldl_append]
  have hd1 : P ((pieces B (msg.take (n / B * B))).foldl f d) := by
    generalize pieces B (msg.take (n / B * B)) = ps
    clear hfull hsplit
    induction ps generalizing d with
    | nil => exact hd
    | cons p ps ih => exact ih _ (hP _ _ hd)
  generalize (pieces B (msg.take (n / B * B))).foldl f d = d1 at hd1 ⊢
  have hrest : n % B ≤ (msg.drop (n / B * B)).length := by rw [List.length_drop]; omega
  generalize msg.drop (n / B * B) = rest at hrest
  unfold zeroCount
  generalize n % B = r at *
  have hrl : (rest.take r).length = r := by rw [List.length_take]; omega
  -- memset
  have e1 : memset (List.replicate B 0xAA#8) 0 0#8 B = .ok (List.replicate B 0#8) := by
    simp [memset]
  have e2 : memcpy (List.replicate B 0#8) 0 rest r =
      .ok (rest.take r ++ List.replicate (B - r) 0#8) := by
    rw [memcpy_ok _ _ _ _ hrest (by simp; omega)]
    simp
  have e3 : wr (rest.take r ++ List.replicate (B - r) 0#8) r 0x80#8 =
      .ok (rest.take r ++ 0x80#8 :: List.replicate (B - r - 1) 0#8) := by
    rw [wr, if_pos (by simp; omega), List.set_append_right _ _ (by omega), hrl, Nat.sub_self]
    congr 2
    rw [show B - r = (B - r - 1) + 1 by omega, List.replicate_succ, List.set_cons_zero]
    simp
  rw [e1]; simp only [Res.ok_bind]
  rw [e2]; simp only [Res.ok_bind]
  rw [e3]; simp only [Res.ok_bind]
  by_cases ht : r ≤ thr
  · rw [if_neg (by omega), if_pos ht]
    simp only [Res.pure_eq, Res.ok_bind]
    rw [memcpy_ok _ _ _ _ (by omega) (by simp; omega)]
    simp only [Res.ok_bind]
    have e4 : (rest.take r ++ 0x80#8 :: List.replicate (B - r - 1) 0#8).take (B - 8) ++ ce.take 8 ++
        (rest.take r ++ 0x80#8 :: List.replicate (B - r - 1) 0#8).drop (B - 8 + 8) =
        rest.take r ++ ([0x80#8] ++ (List.replicate (B - 9 - r) 0#8 ++ ce)) := by
      rw [List.drop_eq_nil_of_le (by simp; omega), List.append_nil, List.take_of_length_le (l := ce)
        (by omega)]
      rw [List.take_append, hrl, List.take_of_length_le (by omega),
        show B - 8 - r = (B - 9 - r) + 1 by omega, List.take_succ_cons, List.take_replicate,
        Nat.min_eq_left (by omega)]
      simp
    rw [e4]
    have hlen : (rest.take r ++ ([0x80#8] ++ (List.replicate (B - 9 - r) 0#8 ++ ce))).length = B := by
      simp [hce]; omega
    rw [htr _ _ hd1 (by omega), pieces_single B hBp _ hlen, List.take_of_length_le (by omega)]
    rfl
  · rw [if_pos (by omega), if_neg ht]
    have hlen : (rest.take r ++ 0x80#8 :: List.replicate (B - r - 1) 0#8).length = B := by
      simp; omega
    rw [htr _ _ hd1 (by omega), List.take_of_length_le (by omega)]
    simp only [Res.pure_eq, Res.ok_bind]
    have e5 : memset (rest.take r ++ 0x80#8 :: List.replicate (B - r - 1) 0#8) 0 0#8 B =
        .ok (List.replicate B 0#8) := by
      rw [memset, if_pos (by omega), List.take_zero, List.drop_eq_nil_of_le (by omega)]
      simp
    rw [e5]; simp only [Res.ok_bind]
    rw [memcpy_ok _ _ _ _ (by omega) (by simp; omega)]
    simp only [Res.ok_bind]
    have e6 : (List.replicate B 0#8).take (B - 8) ++ ce.take 8 ++
        (List.replicate B 0#8).drop (B - 8 + 8) = List.replicate (B - 8) 0#8 ++ ce := by
      rw [List.drop_eq_nil_of_le (by simp; omega), List.append_nil, List.take_of_length_le (l := ce)
        (by omega), List.take_replicate, Nat.min_eq_left (by omega)]
    rw [e6]
    have e7 : rest.take r ++ ([0x80#8] ++ (List.replicate (2 * B - 9 - r) 0#8 ++ ce)) =
        (rest.take r ++ 0x80#8 :: List.replicate (B - r - 1) 0#8) ++
          (List.replicate (B - 8) 0#8 ++ ce) := by
      rw [show 2 * B - 9 - r = (B - r - 1) + (B - 8) by omega, ← List.replicate_append_replicate]
      simp only [List.append_assoc, List.cons_append, List.nil_append]
    have hl2 : (List.replicate (B - 8) 0#8 ++ ce).length = B := by simp [hce]; omega
    rw [e7, pieces_cons B hBp _ _ hlen, pieces_single B hBp _ hl2, htr _ _ (hP _ _ hd1) (by omega),
      List.take_of_length_le (l := List.replicate (B - 8) 0#8 ++ ce) (by omega)]
    rfl

end HashCommon
