import Verif.Model.Basic
import Verif.Spec.BaseN
import Verif.Lemmas.Basic

namespace BaseN

/-! ### cutting lists -/

theorem cut_nil {α : Type} (n k : Nat) : cut n k ([] : List α) = [] := by
  cases n <;> simp [cut]

theorem cut_fuel {α : Type} (n m k : Nat) (l : List α) (hk : 0 < k) (hn : l.length ≤ n)
    (hm : l.length ≤ m) : cut n k l = cut m k l := by
  induction n generalizing m l with
  | zero => have : l = [] := by simpa using hn
            subst this; simp [cut_nil]
  | succ n ih =>
    cases m with
    | zero => have : l = [] := by simpa using hm
              subst this; simp [cut_nil]
    | succ m =>
      by_cases hl : l = []
      · subst hl; simp [cut_nil]
      · have hpos : 0 < l.length := List.length_pos_iff.mpr hl
        simp only [cut, hl, if_false]
        rw [ih m (l.drop k) (by simp; omega) (by simp; omega)]

@[simp] theorem chunksOf_nil {α : Type} (k : Nat) : chunksOf k ([] : List α) = [] := rfl

theorem chunksOf_ne_nil {α : Type} (k : Nat) (l : List α) (hk : 0 < k) (hl : l ≠ []) :
    chunksOf k l = l.take k :: chunksOf k (l.drop k) := by
  have hpos : 0 < l.length := List.length_pos_iff.mpr hl
  unfold chunksOf
  obtain ⟨n, hn⟩ : ∃ n, l.length = n + 1 := ⟨l.length - 1, by omega⟩
  rw [hn]
  simp only [cut, hl, if_false]
  rw [cut_fuel n (l.drop k).length k _ hk (by simp; omega) (by simp)]

theorem chunksOf_append_one {α : Type} (k : Nat) (g l : List α) (hk : 0 < k) (hg : g.length = k) :
    chunksOf k (g ++ l) = g :: chunksOf k l := by
  have : g ++ l ≠ [] := by
    intro h; simp at h; rw [h.1] at hg; simp at hg; omega
  rw [chunksOf_ne_nil k _ hk this]
  subst hg; simp

theorem chunksOf_short {α : Type} (k : Nat) (l : List α) (h0 : l ≠ []) (h : l.length ≤ k) :
    chunksOf k l = [l] := by
  have hpos : 0 < l.length := List.length_pos_iff.mpr h0
  rw [chunksOf_ne_nil k l (by omega) h0, List.take_of_length_le h, List.drop_of_length_le h]
  simp

theorem chunksOf_append {α : Type} (k m : Nat) (g l : List α) (hk : 0 < k) (hg : g.length = m * k) :
    chunksOf k (g ++ l) = chunksOf k g ++ chunksOf k l := by
  induction m generalizing g with
  | zero => have : g = [] := by simpa using hg
            subst this; simp
  | succ m ih =>
    have hlen : k ≤ g.length := by rw [hg, Nat.succ_mul]; omega
    have e : g = g.take k ++ g.drop k := (List.take_append_drop k g).symm
    have ht : (g.take k).length = k := by simp; omega
    rw [e, List.append_assoc, chunksOf_append_one k _ _ hk ht, chunksOf_append_one k _ _ hk ht,
      ih (g.drop k) (by simp [hg, Nat.succ_mul])]
    simp

theorem chunksOf_flatten {α : Type} (k : Nat) (l : List α) (hk : 0 < k) :
    (chunksOf k l).flatten = l := by
  have : ∀ n, ∀ l : List α, l.length ≤ n → (chunksOf k l).flatten = l := by
    intro n
    induction n with
    | zero => intro l hl; have : l = [] := by simpa using hl
              subst this; simp
    | succ n ih =>
      intro l hl
      by_cases h : l = []
      · subst h; simp
      · have hpos : 0 < l.length := List.length_pos_iff.mpr h
        rw [chunksOf_ne_nil k l hk h, List.flatten_cons, ih _ (by simp; omega)]
        simp
  exact this l.length l (Nat.le_refl _)

/-! ### bits and numbers -/

@[simp] theorem bitsOf_length (k n : Nat) : (bitsOf k n).length = k := by simp [bitsOf]

theorem numOf_append_one (l : List Bool) (b : Bool) : numOf (l ++ [b]) = 2 * numOf l + b.toNat := by
  simp [numOf]

theorem bitsOf_succ (k n : Nat) : bitsOf (k+1) n = bitsOf k (n / 2) ++ [n.testBit 0] := by
  simp only [bitsOf, List.range_succ_eq_map, List.reverse_cons, List.map_append, List.map_cons,
    List.map_nil]
  congr 1
  rw [← List.map_reverse, List.map_map]
  apply List.map_congr_left
  intro i _
  simp [Nat.testBit_succ]

theorem numOf_bitsOf (k n : Nat) (h : n < 2 ^ k) : numOf (bitsOf k n) = n := by
  induction k generalizing n with
  | zero => simp at h; subst h; rfl
  | succ k ih =>
    rw [bitsOf_succ, numOf_append_one, ih (n/2) (by rw [Nat.pow_succ] at h; omega)]
    have h2 := Nat.mod_two_eq_zero_or_one n
    rcases h2 with h2 | h2 <;> simp [Nat.testBit_zero, h2] <;> omega

theorem numOf_lt (l : List Bool) : numOf l < 2 ^ l.length := by
  induction h : l.length generalizing l with
  | zero => have : l = [] := by simpa using h
            subst this; decide
  | succ k ih =>
    have hne : l ≠ [] := by intro h0; subst h0; simp at h
    rw [← List.dropLast_concat_getLast hne, numOf_append_one]
    have := ih l.dropLast (by simp [h])
    have hb : (l.getLast hne).toNat ≤ 1 := by cases l.getLast hne <;> simp
    rw [Nat.pow_succ]; omega

theorem bitsOf_numOf (l : List Bool) : bitsOf l.length (numOf l) = l := by
  induction h : l.length generalizing l with
  | zero => have : l = [] := by simpa using h
            subst this; rfl
  | succ k ih =>
    have hne : l ≠ [] := by intro h0; subst h0; simp at h
    have e := List.dropLast_concat_getLast hne
    have ih' := ih l.dropLast (by simp [h])
    have hn : numOf l = 2 * numOf l.dropLast + (l.getLast hne).toNat := by
      rw [← numOf_append_one, e]
    have hdiv : numOf l / 2 = numOf l.dropLast := by
      have hb : (l.getLast hne).toNat ≤ 1 := by cases l.getLast hne <;> simp
      omega
    have hbit : (numOf l).testBit 0 = l.getLast hne := by
      rw [Nat.testBit_zero, hn]
      cases l.getLast hne <;> simp <;> omega
    rw [bitsOf_succ, hdiv, hbit, ih', e]

/-- A byte from its eight bits. -/
theorem byte_toNat (x : Byte) :
    x.toNat = numOf [x.getLsbD 7, x.getLsbD 6, x.getLsbD 5, x.getLsbD 4, x.getLsbD 3, x.getLsbD 2,
      x.getLsbD 1, x.getLsbD 0] := by
  revert x; decide +kernel

theorem numOf_false (l : List Bool) : numOf (false :: l) = numOf l := rfl

theorem bitsOf_8 (b : Byte) : bitsOf 8 b.toNat = [b.getLsbD 7, b.getLsbD 6, b.getLsbD 5, b.getLsbD 4,
    b.getLsbD 3, b.getLsbD 2, b.getLsbD 1, b.getLsbD 0] := by
  rw [byte_toNat b]
  exact bitsOf_numOf [b.getLsbD 7, b.getLsbD 6, b.getLsbD 5, b.getLsbD 4, b.getLsbD 3, b.getLsbD 2,
      b.getLsbD 1, b.getLsbD 0]

theorem ofNat_bits (y : Byte) : BitVec.ofNat 8 (numOf [y.getLsbD 7, y.getLsbD 6, y.getLsbD 5,
    y.getLsbD 4, y.getLsbD 3, y.getLsbD 2, y.getLsbD 1, y.getLsbD 0]) = y := by
  rw [← byte_toNat]; simp

theorem bitsOf_6 (b : Byte) : bitsOf 6 b.toNat = [b.getLsbD 5, b.getLsbD 4,
    b.getLsbD 3, b.getLsbD 2, b.getLsbD 1, b.getLsbD 0] := rfl

theorem bitsOf_5 (b : Byte) : bitsOf 5 b.toNat = [b.getLsbD 4,
    b.getLsbD 3, b.getLsbD 2, b.getLsbD 1, b.getLsbD 0] := rfl

theorem bit_false (x : Byte) (n i : Nat) (h : x.toNat < 2 ^ n) (hi : n ≤ i) : x.getLsbD i = false := by
  rw [BitVec.getLsbD]
  exact Nat.testBit_lt_two_pow (Nat.lt_of_lt_of_le h (Nat.pow_le_pow_right (by omega) hi))

/-! ### digits and bytes -/

theorem bits_length (bs : List Byte) :
    (bs.flatMap fun b => bitsOf 8 b.toNat).length = 8 * bs.length := by
  induction bs with
  | nil => rfl
  | cons b bs ih => simp [List.flatMap_cons, ih] <;> omega

theorem bitsk_length (k : Nat) (ds : List Nat) :
    (ds.flatMap fun d => bitsOf k d).length = k * ds.length := by
  induction ds with
  | nil => rfl
  | cons b bs ih => simp [List.flatMap_cons, ih, Nat.mul_add] <;> omega

theorem digitsOf_append (k m : Nat) (xs ys : List Byte) (hk : 0 < k) (h : 8 * xs.length = m * k) :
    digitsOf k (xs ++ ys) = digitsOf k xs ++ digitsOf k ys := by
  simp only [digitsOf, List.flatMap_append]
  rw [chunksOf_append k m _ _ hk (by rw [bits_length, h]), List.map_append]

theorem bytesOf_append (k m : Nat) (xs ys : List Nat) (h : k * xs.length = m * 8) :
    bytesOf k (xs ++ ys) = bytesOf k xs ++ bytesOf k ys := by
  simp only [bytesOf, List.flatMap_append]
  rw [chunksOf_append 8 m _ _ (by omega) (by rw [bitsk_length, h])]
  simp

theorem bytesOf_short (k : Nat) (ds : List Nat) (h : k * ds.length < 8) : bytesOf k ds = [] := by
  unfold bytesOf
  by_cases h0 : (ds.flatMap fun d => bitsOf k d) = []
  · rw [h0]; rfl
  · rw [chunksOf_short 8 _ h0 (by rw [bitsk_length]; omega)]
    have : (ds.flatMap fun d => bitsOf k d).length ≠ 8 := by rw [bitsk_length]; omega
    simp at this ⊢
    omega

/-- Number of digits of a byte string. -/
theorem chunksOf_length {α : Type} (k : Nat) (l : List α) (hk : 0 < k) :
    (chunksOf k l).length = (l.length + k - 1) / k := by
  have : ∀ n, ∀ l : List α, l.length ≤ n → (chunksOf k l).length = (l.length + k - 1) / k := by
    intro n
    induction n with
    | zero => intro l hl; have : l = [] := by simpa using hl
              subst this; simp; exact (Nat.div_eq_of_lt (by omega)).symm
    | succ n ih =>
      intro l hl
      by_cases h : l = []
      · subst h; simp; exact (Nat.div_eq_of_lt (by omega)).symm
      · have hpos : 0 < l.length := List.length_pos_iff.mpr h
        rw [chunksOf_ne_nil k l hk h, List.length_cons, ih _ (by simp; omega), List.length_drop]
        by_cases hle : l.length ≤ k
        · rw [Nat.sub_eq_zero_of_le hle, Nat.zero_add, Nat.div_eq_of_lt (show k - 1 < k by omega)]
          symm; apply Nat.div_eq_of_lt_le <;> omega
        · rw [show l.length + k - 1 = (l.length - k + k - 1) + k by omega, Nat.add_div_right _ hk]
  exact this l.length l (Nat.le_refl _)

theorem digitsOf_length (k : Nat) (bs : List Byte) (hk : 0 < k) :
    (digitsOf k bs).length = (8 * bs.length + k - 1) / k := by
  rw [digitsOf, List.length_map, chunksOf_length _ _ hk, bits_length]

theorem digitsOf_lt (k : Nat) (bs : List Byte) (hk : 0 < k) (d : Nat) (hd : d ∈ digitsOf k bs) :
    d < 2 ^ k := by
  simp only [digitsOf, List.mem_map] at hd
  obtain ⟨g, hg, rfl⟩ := hd
  have hl : ∀ n, ∀ l : List Bool, l.length ≤ n → ∀ g ∈ chunksOf k l, g.length ≤ k := by
    intro n
    induction n with
    | zero => intro l hl; have : l = [] := by simpa using hl
              subst this; simp
    | succ n ih =>
      intro l hl g hg
      by_cases h : l = []
      · subst h; simp at hg
      · have hpos : 0 < l.length := List.length_pos_iff.mpr h
        rw [chunksOf_ne_nil k l hk h, List.mem_cons] at hg
        rcases hg with rfl | hg
        · simp; omega
        · exact ih (l.drop k) (by simp; omega) g hg
  have hgl := hl _ _ (Nat.le_refl _) g hg
  have := numOf_lt (zeroFill k g)
  have hz : (zeroFill k g).length = k := by simp [zeroFill]; omega
  rwa [hz] at this

/-- The bit stream of the digits is the bit stream of the bytes followed by fewer than `k` zeros. -/
theorem bits_of_digits (k : Nat) (l : List Bool) (hk : 0 < k) :
    ∃ f, f < k ∧ (((chunksOf k l).map fun g => numOf (zeroFill k g)).flatMap fun d => bitsOf k d)
      = l ++ List.replicate f false := by
  have : ∀ n, ∀ l : List Bool, l.length ≤ n → ∃ f, f < k ∧
      (((chunksOf k l).map fun g => numOf (zeroFill k g)).flatMap fun d => bitsOf k d)
      = l ++ List.replicate f false := by
    intro n
    induction n with
    | zero => intro l hl; have : l = [] := by simpa using hl
              subst this; exact ⟨0, hk, by simp⟩
    | succ n ih =>
      intro l hl
      by_cases h : l = []
      · subst h; exact ⟨0, hk, by simp⟩
      · have hpos : 0 < l.length := List.length_pos_iff.mpr h
        by_cases hle : l.length < k
        · refine ⟨k - l.length, by omega, ?_⟩
          rw [chunksOf_short k l h (by omega)]
          simp only [List.map_cons, List.map_nil, List.flatMap_cons, List.flatMap_nil,
            List.append_nil]
          have hz : (zeroFill k l).length = k := by simp [zeroFill]; omega
          have := bitsOf_numOf (zeroFill k l)
          rw [hz] at this
          rw [this]; rfl
        · obtain ⟨f, hf, he⟩ := ih (l.drop k) (by simp; omega)
          refine ⟨f, hf, ?_⟩
          rw [chunksOf_ne_nil k l hk h]
          simp only [List.map_cons, List.flatMap_cons]
          rw [he]
          have hz : zeroFill k (l.take k) = l.take k := by
            simp [zeroFill, List.length_take]; omega
          have hlen : (l.take k).length = k := by simp; omega
          have := bitsOf_numOf (l.take k)
          rw [hlen] at this
          rw [hz, this, ← List.append_assoc, List.take_append_drop]
  exact this _ l (Nat.le_refl _)

theorem bytes_of_bits (bs : List Byte) (f : List Bool) (hf : f.length < 8) :
    ((chunksOf 8 ((bs.flatMap fun b => bitsOf 8 b.toNat) ++ f)).filter fun g => g.length = 8).map
      (fun g => BitVec.ofNat 8 (numOf g)) = bs := by
  induction bs with
  | nil =>
    simp only [List.flatMap_nil, List.nil_append]
    by_cases h : f = []
    · subst h; rfl
    · rw [chunksOf_short 8 f h (by omega)]
      simp; omega
  | cons b bs ih =>
    rw [List.flatMap_cons, List.append_assoc, chunksOf_append_one 8 _ _ (by omega) (by simp)]
    simp only [List.filter_cons, bitsOf_length, decide_true, if_true, List.map_cons, ih]
    rw [numOf_bitsOf 8 _ b.isLt]
    simp

/-- Decoding the digits of a byte string gives the byte string back. -/
theorem bytesOf_digitsOf (k : Nat) (bs : List Byte) (hk : 0 < k) (h8 : k ≤ 8) :
    bytesOf k (digitsOf k bs) = bs := by
  obtain ⟨f, hf, he⟩ := bits_of_digits k (bs.flatMap fun b => bitsOf 8 b.toNat) hk
  unfold bytesOf digitsOf
  rw [he]
  exact bytes_of_bits bs _ (by simp; omega)

/-! ### legal groups -/

theorem legalGroups_all (g : Nat) (val : Byte → Option Nat) (cs : List Byte) (hg : 0 < g)
    (h : ∀ c ∈ cs, (val c).isSome) : legalGroups g val cs = cs.filterMap val := by
  unfold legalGroups
  have : ((chunksOf g cs).takeWhile fun c => c.all fun x => (val x).isSome) = chunksOf g cs := by
    have tw : ∀ (p : List Byte → Bool) (L : List (List Byte)), (∀ c ∈ L, p c = true) →
        L.takeWhile p = L := by
      intro p L
      induction L with
      | nil => simp
      | cons a L ih => intro hL; rw [List.takeWhile_cons, hL a (by simp)]
                       simp only [if_true]; rw [ih (fun c hc => hL c (by simp [hc]))]
    apply tw
    intro c hc
    rw [List.all_eq_true]
    intro x hx
    apply h
    rw [← chunksOf_flatten g cs hg]
    exact List.mem_flatten.mpr ⟨c, hc, hx⟩
  rw [this, chunksOf_flatten g cs hg]

theorem legalGroups_map (g : Nat) (val : Byte → Option Nat) (char : Nat → Byte) (ds : List Nat)
    (hg : 0 < g) (h : ∀ d ∈ ds, val (char d) = some d) : legalGroups g val (ds.map char) = ds := by
  rw [legalGroups_all g val _ hg (by
    intro c hc
    obtain ⟨d, hd, rfl⟩ := List.mem_map.mp hc
    rw [h d hd]; rfl)]
  induction ds with
  | nil => rfl
  | cons d ds ih =>
    rw [List.map_cons, List.filterMap_cons, h d (by simp)]
    simp only
    rw [ih (fun d hd => h d (by simp [hd]))]

theorem legalGroups_cons (g : Nat) (val : Byte → Option Nat) (c rest : List Byte)
    (hg : 0 < g) (hc : c.length = g) :
    legalGroups g val (c ++ rest) = if (c.all fun x => (val x).isSome) then
      c.filterMap val ++ legalGroups g val rest else [] := by
  unfold legalGroups
  rw [chunksOf_append_one g c rest hg hc, List.takeWhile_cons]
  split <;> simp

theorem legalGroups_short (g : Nat) (val : Byte → Option Nat) (c : List Byte)
    (h0 : c ≠ []) (hc : c.length ≤ g) :
    legalGroups g val c = if (c.all fun x => (val x).isSome) then c.filterMap val else [] := by
  unfold legalGroups
  rw [chunksOf_short g c h0 hc, List.takeWhile_cons]
  split <;> simp

@[simp] theorem legalGroups_nil (g : Nat) (val : Byte → Option Nat) : legalGroups g val [] = [] := rfl

end BaseN
