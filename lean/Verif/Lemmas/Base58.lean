import Verif.Model.Base58
import Verif.Lemmas.Positional
import Verif.Lemmas.Basic

namespace Base58
open Positional Base58Spec

theorem rd_append_left {α : Type} (p s : List α) (i : Nat) (h : i < p.length) : rd (p ++ s) i = rd p i := by
  simp [rd, List.getElem?_append_left h]

/-- Number held by a work buffer of base-`B` digits. -/
def num (B : Nat) (buf : List Byte) : Nat := value B (buf.map BitVec.toNat)

theorem num_snoc (B : Nat) (xs : List Byte) (d : Byte) : num B (xs ++ [d]) = num B xs * B + d.toNat := by
  simp [num, value_snoc]

theorem num_zeros (B : Nat) (xs : List Byte) (h : ∀ x ∈ xs, x = 0#8) : num B xs = 0 := by
  apply value_zeros
  intro x hx
  obtain ⟨y, hy, rfl⟩ := List.mem_map.mp hx
  rw [h y hy]; rfl

theorem num_lt (B : Nat) (xs : List Byte) (h : ∀ x ∈ xs, x.toNat < B) : num B xs < B ^ xs.length := by
  have := value_lt B (xs.map BitVec.toNat) (by
    intro x hx
    obtain ⟨y, hy, rfl⟩ := List.mem_map.mp hx
    exact h y hy)
  simpa [num] using this

/-- The carry loop multiplies the number in the buffer by `m` and adds `carry`. -/
theorem carryLoop_spec (B m length : Nat) (hB : 2 ≤ B) (hB2 : B ≤ 256) (hmB : m * B < 2^31)
    (it i carry : Nat) (hi lo : List Byte) (hl : hi.length = it) (hd : ∀ x ∈ hi, x.toNat < B)
    (hz : ∀ x ∈ hi.take (it - (length - i)), x = 0#8) (hc : carry < m) :
    ∃ hi' i' c', carryLoop B m length it i carry (hi ++ lo) = .ok (hi' ++ lo, i', c') ∧
      hi'.length = it ∧ (∀ x ∈ hi', x.toNat < B) ∧ num B hi' + c' * B ^ it = m * num B hi + carry ∧
      i ≤ i' ∧ i' ≤ i + it ∧ (∀ x ∈ hi'.take (it - (i' - i)), x = 0#8) := by
  induction it generalizing i carry hi lo with
  | zero =>
    have : hi = [] := List.length_eq_zero_iff.mp hl
    subst this
    exact ⟨[], i, carry, rfl, rfl, by simp, by simp [num, value], by omega, by omega, by simp⟩
  | succ it ih =>
    by_cases hgo : carry ≠ 0 ∨ i < length
    · have h0 : hi ≠ [] := by intro h; simp [h] at hl
      obtain ⟨h, d, rfl⟩ : ∃ h d, hi = h ++ [d] := ⟨_, _, (List.dropLast_concat_getLast h0).symm⟩
      have hlen : h.length = it := by simpa using hl
      have hdB := hd d (by simp)
      have hsum : carry + m * d.toNat < m * B := by
        have : m * (d.toNat + 1) ≤ m * B := Nat.mul_le_mul_left m hdB
        rw [Nat.mul_add] at this; omega
      have hrd : rd (h ++ [d] ++ lo) it = .ok d := by
        rw [List.append_assoc]; exact rd_append_mid _ _ _ _ hlen.symm
      have hwr : ∀ x, wr (h ++ [d] ++ lo) it x = .ok (h ++ x :: lo) := by
        intro x
        subst hlen
        simp [wr]
      obtain ⟨hi', i', c', e, e1, e2, e3, e4, e5, e6⟩ := ih (i+1) ((carry + m * d.toNat) / B) h
        (BitVec.ofNat 8 ((carry + m * d.toNat) % B) :: lo) hlen (fun x hx => hd x (by simp [hx]))
        (by
          intro x hx
          apply hz
          by_cases hil : i < length
          · rw [show it + 1 - (length - i) = it - (length - (i+1)) by omega,
              List.take_append_of_le_length (by omega)]
            exact hx
          · rw [show it + 1 - (length - i) = it + 1 by omega, List.take_of_length_le (by simp; omega)]
            exact List.mem_append_left _ (List.mem_of_mem_take hx))
        (Nat.div_lt_of_lt_mul (by rw [Nat.mul_comm B m]; exact hsum))
      have hmod : (carry + m * d.toNat) % B < B := Nat.mod_lt _ (by omega)
      refine ⟨hi' ++ [BitVec.ofNat 8 ((carry + m * d.toNat) % B)], i', c', ?_, by simp [e1], ?_, ?_,
        by omega, by omega, ?_⟩
      · rw [carryLoop, if_pos hgo, hrd]
        simp only [Res.ok_bind]
        rw [if_neg (by omega), hwr]
        simp only [Res.ok_bind]
        rw [e]; simp
      · intro x hx
        rcases List.mem_append.mp hx with hx | hx
        · exact e2 x hx
        · simp at hx; subst hx; simp; omega
      · rw [num_snoc, num_snoc, Nat.pow_succ, BitVec.toNat_ofNat, Nat.mod_eq_of_lt (a := _ % B) (by omega)]
        have := Nat.div_add_mod (carry + m * d.toNat) B
        have e3' : (num B hi' + c' * B ^ it) * B = (m * num B h + (carry + m * d.toNat) / B) * B := by
          rw [e3]
        rw [Nat.add_mul, Nat.add_mul, Nat.mul_assoc, Nat.mul_assoc m] at e3'
        rw [Nat.mul_add, Nat.mul_comm ((carry + m * d.toNat) / B) B] at *
        omega
      · intro x hx
        rw [show it + 1 - (i' - i) = it - (i' - (i+1)) by omega,
          List.take_append_of_le_length (by omega)] at hx
        exact e6 x hx
    · have hc0 : carry = 0 := by omega
      have hil : length ≤ i := by omega
      rw [show it + 1 - (length - i) = it + 1 by omega, List.take_of_length_le (by omega)] at hz
      refine ⟨hi, i, carry, ?_, hl, hd, ?_, by omega, by omega, ?_⟩
      · rw [carryLoop, if_neg hgo]; rfl
      · rw [num_zeros B hi hz, hc0]; simp
      · intro x hx; exact hz x (List.mem_of_mem_take hx)

/-- Work buffer holding the number `v` in its low `length` cells. -/
structure Holds (B : Nat) (buf : List Byte) (size length v : Nat) : Prop where
  len : buf.length = size
  lt : ∀ x ∈ buf, x.toNat < B
  val : num B buf = v
  le : length ≤ size
  zero : ∀ x ∈ buf.take (size - length), x = 0#8

theorem holds_init (B size : Nat) (hB : 2 ≤ B) : Holds B (List.replicate size 0#8) size 0 0 := by
  refine ⟨by simp, ?_, ?_, by omega, ?_⟩
  · intro x hx; rw [List.eq_of_mem_replicate hx]; simp; omega
  · exact num_zeros B _ (fun x hx => List.eq_of_mem_replicate hx)
  · intro x hx; exact List.eq_of_mem_replicate (List.mem_of_mem_take hx)

/-- One digit is absorbed without a left-over carry as long as the result fits. -/
theorem carryLoop_holds (B m size length v c : Nat) (buf : List Byte) (hB : 2 ≤ B) (hB2 : B ≤ 256)
    (hmB : m * B < 2^31) (h : Holds B buf size length v) (hc : c < m) (hfit : m * v + c < B ^ size) :
    ∃ buf' i, carryLoop B m length size 0 c buf = .ok (buf', i, 0) ∧ Holds B buf' size i (m * v + c) := by
  obtain ⟨b', i', c', e, e1, e2, e3, -, e5, e6⟩ := carryLoop_spec B m length hB hB2 hmB size 0 c buf []
    h.len h.lt (by simpa using h.zero) hc
  simp only [List.append_nil, Nat.sub_zero, Nat.zero_add] at e e5 e6
  rw [h.val] at e3
  have hc0 : c' = 0 := by
    rcases Nat.eq_zero_or_pos c' with h0 | h0
    · exact h0
    · have : B ^ size ≤ c' * B ^ size := Nat.le_mul_of_pos_left _ h0
      omega
  subst hc0
  exact ⟨b', i', e, e1, e2, by simpa using e3, e5, e6⟩

/-! ### skipping zeroes -/

theorem skipZeroes_eq (buf : List Byte) (k p : Nat) (h : p + k ≤ buf.length) :
    skipZeroes buf k p = .ok (p + (((buf.drop p).take k).takeWhile (· = 0#8)).length) := by
  induction k generalizing p with
  | zero => simp [skipZeroes]
  | succ k ih =>
    have hp : p < buf.length := by omega
    rw [skipZeroes, rd_ok _ _ hp, List.drop_eq_getElem_cons hp]
    simp only [Res.ok_bind, List.take_succ_cons]
    by_cases hb : buf[p] = 0#8
    · rw [if_pos hb, ih (p+1) (by omega)]
      simp [hb]; omega
    · rw [if_neg hb, List.takeWhile_cons_of_neg (by simpa using hb)]
      simp

/-- After the final scan the remaining cells are the canonical digits. -/
theorem skip_holds (B size length v : Nat) (buf : List Byte) (hB : 2 ≤ B)
    (h : Holds B buf size length v) :
    ∃ it, skipZeroes buf length (size - length) = .ok it ∧ it ≤ size ∧
      (buf.drop it) = (digits B v).map (BitVec.ofNat 8) ∧ size - it = (digits B v).length := by
  have hle := h.le
  have hlen := h.len
  rw [skipZeroes_eq _ _ _ (by omega), List.take_of_length_le (by simp; omega)]
  have hdw : ∀ l : List Byte, l.drop (l.takeWhile (· = 0#8)).length = l.dropWhile (· = 0#8) := by
    intro l
    induction l with
    | nil => rfl
    | cons a l ih =>
      by_cases ha : a = 0#8
      · subst ha; simpa using ih
      · simp [ha]
  have hm : ∀ l : List Byte, (l.dropWhile (· = 0#8)).map BitVec.toNat = (l.map BitVec.toNat).dropWhile (· = 0) := by
    intro l
    induction l with
    | nil => rfl
    | cons a l ih =>
      by_cases ha : a = 0#8
      · subst ha; simpa using ih
      · have : a.toNat ≠ 0 := by intro h0; apply ha; apply BitVec.eq_of_toNat_eq; simpa using h0
        simp [ha, this]
  have hskip : buf.dropWhile (· = 0#8) = (buf.drop (size - length)).dropWhile (· = 0#8) := by
    conv => lhs; rw [← List.take_append_drop (size - length) buf]
    rw [List.dropWhile_append_of_pos (by intro a ha; simpa using h.zero a ha)]
  have hback : ∀ l : List Byte, (l.map BitVec.toNat).map (BitVec.ofNat 8) = l := by
    intro l; simp [List.map_map, Function.comp_def]
  have hd : buf.dropWhile (· = 0#8) = (digits B v).map (BitVec.ofNat 8) := by
    rw [← hback (buf.dropWhile _), hm, dropWhile_zero_eq_digits B hB _ (by
      intro d hd
      obtain ⟨x, hx, rfl⟩ := List.mem_map.mp hd
      exact h.lt x hx)]
    rw [show value B (buf.map BitVec.toNat) = v from h.val]
  have hdrop : buf.drop (size - length + ((buf.drop (size - length)).takeWhile (· = 0#8)).length) =
      (digits B v).map (BitVec.ofNat 8) := by
    rw [← List.drop_drop, hdw, ← hskip, hd]
  have hle2 : ((buf.drop (size - length)).takeWhile (· = 0#8)).length ≤ length := by
    have := (List.takeWhile_sublist (fun x : Byte => decide (x = 0#8)) (l := buf.drop (size - length))).length_le
    rw [List.length_drop, hlen] at this
    exact Nat.le_trans this (by omega)
  refine ⟨_, rfl, by omega, hdrop, ?_⟩
  have := congrArg List.length hdrop
  simp only [List.length_drop, List.length_map] at this
  rw [← hlen] at *
  omega

/-! ### encoding -/

theorem pow_bound_enc (n : Nat) : 256 ^ n ≤ 58 ^ (n * 138 / 100 + 1) := by
  have h1 : (256:Nat) ^ 100 ≤ 58 ^ 138 := by decide +kernel
  have h2 : ∀ r : Fin 100, (256:Nat) ^ r.1 ≤ 58 ^ (r.1 * 138 / 100 + 1) := by decide +kernel
  have e : n * 138 / 100 + 1 = 138 * (n / 100) + ((n % 100) * 138 / 100 + 1) := by omega
  have e2 : n = 100 * (n / 100) + n % 100 := by omega
  conv => lhs; rw [e2]
  rw [e, Nat.pow_add, Nat.pow_add, Nat.pow_mul, Nat.pow_mul]
  exact Nat.mul_le_mul (Nat.pow_le_pow_left h1 _) (h2 ⟨n % 100, Nat.mod_lt _ (by omega)⟩)

theorem pow_bound_dec (n : Nat) : 58 ^ n ≤ 256 ^ (n * 733 / 1000 + 1) := by
  have h1 : (58:Nat) ^ 1000 ≤ 256 ^ 733 := by decide +kernel
  have h2 : ∀ r : Fin 1000, (58:Nat) ^ r.1 ≤ 256 ^ (r.1 * 733 / 1000 + 1) := by decide +kernel
  have e : n * 733 / 1000 + 1 = 733 * (n / 1000) + ((n % 1000) * 733 / 1000 + 1) := by omega
  have e2 : n = 1000 * (n / 1000) + n % 1000 := by omega
  conv => lhs; rw [e2]
  rw [e, Nat.pow_add, Nat.pow_add, Nat.pow_mul, Nat.pow_mul]
  exact Nat.mul_le_mul (Nat.pow_le_pow_left h1 _) (h2 ⟨n % 1000, Nat.mod_lt _ (by omega)⟩)

theorem number_snoc (xs : List Byte) (x : Byte) : number (xs ++ [x]) = number xs * 256 + x.toNat := by
  simp [number, value_snoc]

theorem number_lt (xs : List Byte) : number xs < 256 ^ xs.length := by
  have := value_lt 256 (xs.map BitVec.toNat) (by
    intro x hx
    obtain ⟨y, -, rfl⟩ := List.mem_map.mp hx
    exact y.isLt)
  simpa [number] using this

/-- Main encoding loop, on the bytes from offset `p` on. -/
theorem enc_loop (buf : List Byte) (size : Nat) (k p : Nat) (st : List Byte × Nat) (pre : List Byte)
    (hk : p + k ≤ buf.length) (hst : Holds 58 st.1 size st.2 (number pre))
    (hfit : 256 ^ (pre.length + k) ≤ 58 ^ size) :
    ∃ st', forLoop (encBody buf size) p k st = .ok st' ∧
      Holds 58 st'.1 size st'.2 (number (pre ++ (buf.drop p).take k)) := by
  induction k generalizing p st pre with
  | zero => exact ⟨st, rfl, by simpa using hst⟩
  | succ k ih =>
    have hp : p < buf.length := by omega
    have hnum := number_lt (pre ++ [buf[p]])
    have hpow : 256 ^ (pre.length + 1) ≤ 256 ^ (pre.length + (k+1)) := Nat.pow_le_pow_right (by omega) (by omega)
    rw [List.length_append, List.length_cons, List.length_nil, number_snoc] at hnum
    obtain ⟨b', i', e, hh⟩ := carryLoop_holds 58 256 size st.2 (number pre) buf[p].toNat st.1 (by omega) (by omega)
      (by decide) hst buf[p].isLt (by rw [Nat.mul_comm]; simp only [Nat.zero_add] at hnum; omega)
    have hb : encBody buf size p st = .ok (b', i') := by
      unfold encBody
      rw [rd_ok _ _ hp]
      simp only [Res.ok_bind, e]
      rfl
    obtain ⟨st', e2, hh2⟩ := ih (p+1) (b', i') (pre ++ [buf[p]]) (by omega)
      (by rw [number_snoc, Nat.mul_comm]; exact hh) (by
        rw [List.length_append, List.length_cons, List.length_nil,
          show pre.length + (0+1) + k = pre.length + (k+1) by omega]; exact hfit)
    refine ⟨st', by rw [forLoop, hb]; simpa using e2, ?_⟩
    rw [List.drop_eq_getElem_cons hp, List.take_succ_cons]
    simpa using hh2

theorem rd_encode (n : Nat) (h : n < 58) : rd BASE58_ENCODE n = .ok (char n) := by
  have : ∀ n : Fin 58, rd BASE58_ENCODE n.1 = .ok (char n.1) := by decide +kernel
  exact this ⟨n, h⟩

/-- Output loop (both directions): cells `it0 …` go to `out[z …]` through `f`. -/
theorem out_loop (g : Nat → List Byte → Res (List Byte)) (b : List Byte) (f : Byte → Byte)
    (it0 k j : Nat) (W out : List Byte) (z : Nat) (hW : W.length = z + j)
    (hg : ∀ i (_ : i < b.length) o, it0 ≤ i → g i o = wr o (z + (i - it0)) (f b[i]))
    (hk : it0 + j + k = b.length) (ho : z + j + k ≤ out.length) :
    forLoop g (it0 + j) k (over W out) = .ok (over (W ++ (b.drop (it0 + j)).map f) out) := by
  induction k generalizing j W with
  | zero => rw [List.drop_of_length_le (by omega)]; simp [forLoop]
  | succ k ih =>
    have hi : it0 + j < b.length := by omega
    rw [forLoop, hg _ hi _ (by omega), wr_over _ _ _ _ (by omega) (by omega)]
    simp only [Res.ok_bind]
    rw [show it0 + j + 1 = it0 + (j+1) by omega,
      ih (j+1) _ (by simp; omega) (by omega) (by omega), List.drop_eq_getElem_cons hi]
    simp [Nat.add_assoc]

theorem memset_zero_over {α : Type} (out : List α) (v : α) (n : Nat) (h : n ≤ out.length) :
    memset out 0 v n = .ok (over (List.replicate n v) out) := by
  simp [memset, h, over]

theorem number_dropZeros (bs : List Byte) :
    number (bs.dropWhile (· = 0#8)) = number bs := by
  induction bs with
  | nil => rfl
  | cons b bs ih =>
    by_cases hb : b = 0#8
    · subst hb
      simp only [decide_true, List.dropWhile_cons_of_pos]
      rw [ih]
      simp [number, value_cons]
    · rw [List.dropWhile_cons_of_neg (by simpa using hb)]

theorem toBase58_eq_exact (bs str : List Byte) (hn : (bs.length - (bs.takeWhile (· = 0#8)).length) * 138 / 100 + 1 < 2^31)
    (hs : (encode bs).length ≤ str.length) :
    toBase58 bs bs.length str = .ok (over (encode bs) str, (encode bs).length) := by
  have hz := skipZeroes_eq bs bs.length 0 (by omega)
  simp only [List.drop_zero, List.take_length, Nat.zero_add] at hz
  generalize hzd : (bs.takeWhile (· = 0#8)).length = z at hz hn
  have hzle : z ≤ bs.length := by
    rw [← hzd]; exact (List.takeWhile_sublist _).length_le
  have hdz : bs.drop z = bs.dropWhile (· = 0#8) := by
    conv => lhs; rw [← List.takeWhile_append_dropWhile (p := fun x : Byte => decide (x = 0#8)) (l := bs)]
    rw [← hzd, List.drop_left]
  unfold toBase58
  rw [hz]
  simp only [Res.ok_bind]
  generalize hsize : (bs.length - z) * 138 / 100 + 1 = size
  rw [if_neg (by omega)]
  obtain ⟨st', e, hh⟩ := enc_loop bs size (bs.length - z) z (List.replicate size 0#8, 0) [] (by omega)
    (by simpa [number, value] using holds_init 58 size (by omega))
    (by rw [← hsize]; simpa using pow_bound_enc (bs.length - z))
  obtain ⟨b58, len⟩ := st'
  rw [List.nil_append, List.take_of_length_le (by simp), hdz, number_dropZeros] at hh
  rw [e]
  simp only [Res.ok_bind]
  obtain ⟨it, e1, e2, e3, e4⟩ := skip_holds 58 size len _ b58 (by omega) hh
  rw [e1]
  simp only [Res.ok_bind]
  have hel : (encode bs).length = z + (size - it) := by
    have : (bs.takeWhile (· = 0#8)).length = z := hzd
    simp only [encode, List.length_append, List.length_replicate, List.length_map, this]; omega
  rw [memset_zero_over _ _ _ (by omega)]
  simp only [Res.ok_bind]
  have hlen := hh.len
  have := out_loop (encOut b58 z it) b58 (fun d => char d.toNat) it (size - it) 0
    (List.replicate z (chr '1')) str z (by simp) (by
      intro i hi o _
      unfold encOut
      rw [rd_ok _ _ hi]
      simp only [Res.ok_bind]
      rw [rd_encode _ (hh.lt _ (List.getElem_mem _))]
      rfl) (by simp only at hlen; omega) (by omega)
  rw [Nat.add_zero] at this
  rw [this, e3, List.map_map]
  have hmap : (digits 58 (number bs)).map ((fun d : Byte => char d.toNat) ∘ BitVec.ofNat 8) =
      (digits 58 (number bs)).map char := by
    apply List.map_congr_left
    intro d hd
    have := digits_lt 58 _ (by omega) d hd
    simp only [Function.comp, BitVec.toNat_ofNat]
    rw [Nat.mod_eq_of_lt (by omega)]
  have hz2 : (bs.takeWhile (· = 0#8)).length = z := hzd
  have henc : encode bs = List.replicate z (chr '1') ++ (digits 58 (number bs)).map char := by
    rw [encode, hz2]; rfl
  rw [hmap, ← henc, hel]
  rfl

theorem toBase58_eq (bs str : List Byte) (hn : bs.length < 2^30) (hs : (encode bs).length ≤ str.length) :
    toBase58 bs bs.length str = .ok (over (encode bs) str, (encode bs).length) :=
  toBase58_eq_exact bs str (by omega) hs

/-! ### decoding -/

theorem isspace_eq (cs : Bool) (c : Byte) (h : cs = true → c.toNat < 128) :
    isspace cs c = .ok (isSpace c) := by
  unfold isspace isSpace
  cases cs
  · simp
  · have := h rfl
    rw [if_neg (by simp; omega)]

theorem isSpace_zero : isSpace 0#8 = false := by decide

theorem skipSpaces_eq (cs : Bool) (s post : List Byte) (n : Nat) (h0 : ∀ b ∈ s, b ≠ 0#8)
    (h : cs = true → ∀ b ∈ s, b.toNat < 128) :
    skipSpaces cs (s ++ 0#8 :: post) n =
      .ok (s.dropWhile isSpace ++ 0#8 :: post, n + (s.takeWhile isSpace).length) := by
  induction s generalizing n with
  | nil => simp [skipSpaces]
  | cons c s ih =>
    rw [List.cons_append, skipSpaces, if_neg (h0 c (by simp)),
      isspace_eq cs c (fun hc => h hc c (by simp))]
    simp only [Res.ok_bind]
    by_cases hsp : isSpace c = true
    · rw [if_pos hsp, ih (n+1) (fun b hb => h0 b (by simp [hb])) (fun hc b hb => h hc b (by simp [hb]))]
      simp [hsp]; omega
    · simp [hsp]

theorem countOnes_eq (s post : List Byte) (n : Nat) :
    countOnes (s ++ 0#8 :: post) n =
      .ok (s.dropWhile (· = 49#8) ++ 0#8 :: post, n + (s.takeWhile (· = 49#8)).length) := by
  have h1 : chr '1' = 49#8 := by decide
  induction s generalizing n with
  | nil => simp [countOnes, h1]
  | cons c s ih =>
    rw [List.cons_append, countOnes, h1]
    by_cases hc : c = 49#8
    · rw [if_pos hc, ih (n+1)]; simp [hc]; omega
    · rw [if_neg hc]; simp [hc]

theorem skipTrailing_eq (cs : Bool) (s post : List Byte)
    (h : cs = true → ∀ b ∈ s, b.toNat < 128) :
    skipTrailing cs (s ++ 0#8 :: post) = .ok (s.dropWhile isSpace ++ 0#8 :: post) := by
  induction s with
  | nil =>
    rw [List.nil_append, skipTrailing, isspace_eq cs 0#8 (by simp), isSpace_zero]; simp
  | cons c s ih =>
    rw [List.cons_append, skipTrailing, isspace_eq cs c (fun hc => h hc c (by simp))]
    simp only [Res.ok_bind]
    by_cases hsp : isSpace c = true
    · rw [if_pos hsp, ih (fun hc b hb => h hc b (by simp [hb]))]; simp [hsp]
    · simp [hsp]

theorem rd_decode (c : Byte) : rd BASE58_DECODE c.toNat =
    .ok (match value? c with | some v => (v : Int) | none => -1) := by
  revert c; decide +kernel

theorem value?_lt (c : Byte) (v : Nat) : value? c = some v → v < 58 := by
  have h : ∀ c : Byte, ∀ v, value? c = some v → v < 58 := by
    intro c
    have : (value? c).all (· < 58) = true := by revert c; decide +kernel
    intro v hv; rw [hv] at this; simpa using this
  exact h c v

theorem value58_lt (ds : List Nat) (h : ∀ d ∈ ds, d < 58) : value 58 ds < 58 ^ ds.length :=
  value_lt 58 ds h

theorem digitLoop_eq (cs : Bool) (size : Nat) (t post : List Byte) (b256 : List Byte) (length : Nat)
    (pre : List Nat) (h0 : ∀ b ∈ t, b ≠ 0#8) (h : cs = true → ∀ b ∈ t, b.toNat < 128)
    (hpre : ∀ d ∈ pre, d < 58) (hst : Holds 256 b256 size length (value 58 pre))
    (hfit : 58 ^ (pre.length + t.length) ≤ 256 ^ size) :
    if (t.takeWhile fun c => !isSpace c).all (fun c => (value? c).isSome) then
      ∃ b' len, digitLoop cs size (t ++ 0#8 :: post) b256 length =
          .ok (some ((t.dropWhile fun c => !isSpace c) ++ 0#8 :: post, b', len)) ∧
        Holds 256 b' size len (value 58 (pre ++ (t.takeWhile fun c => !isSpace c).filterMap value?))
    else digitLoop cs size (t ++ 0#8 :: post) b256 length = .ok none := by
  induction t generalizing b256 length pre with
  | nil =>
    simp only [List.takeWhile_nil, List.all_nil, if_true]
    exact ⟨b256, length, by simp [digitLoop], by simpa using hst⟩
  | cons c t ih =>
    have hc0 := h0 c (by simp)
    have hsp := isspace_eq cs c (fun hc => h hc c (by simp))
    by_cases hs : isSpace c = true
    · simp only [List.takeWhile_cons, hs, Bool.not_true, Bool.false_eq_true, if_false, List.all_nil, if_true]
      refine ⟨b256, length, ?_, by simpa using hst⟩
      rw [List.cons_append, digitLoop, if_neg hc0, hsp]
      simp [hs]
    · simp only [List.takeWhile_cons, hs, Bool.not_false, if_true, List.all_cons]
      have hloop : digitLoop cs size (c :: t ++ 0#8 :: post) b256 length = (do
          let v ← rd BASE58_DECODE c.toNat
          if v = -1 then pure none
          else
            let (b256, i, carry) ← carryLoop 256 58 length size 0 v.toNat b256
            assertC (carry == 0)
            digitLoop cs size (t ++ 0#8 :: post) b256 i) := by
        rw [List.cons_append, digitLoop, if_neg hc0, hsp]
        simp only [Res.ok_bind, hs, Bool.false_eq_true, if_false]
      rw [hloop, rd_decode]
      simp only [Res.ok_bind]
      cases hv : value? c with
      | none => simp
      | some v =>
        have hvlt := value?_lt c v hv
        simp only [Option.isSome_some, Bool.true_and]
        rw [if_neg (show ¬ ((v:Int) = -1) by omega)]
        have hpre' : ∀ d ∈ pre ++ [v], d < 58 := by
          intro d hd
          rcases List.mem_append.mp hd with hd | hd
          · exact hpre d hd
          · simp at hd; omega
        have hval := value_lt 58 (pre ++ [v]) hpre'
        rw [value_snoc, List.length_append, List.length_cons, List.length_nil] at hval
        have hpow : 58 ^ (pre.length + 1) ≤ 58 ^ (pre.length + (t.length + 1)) :=
          Nat.pow_le_pow_right (by omega) (by omega)
        obtain ⟨b', i', e, hh⟩ := carryLoop_holds 256 58 size length (value 58 pre) v b256 (by omega)
          (by omega) (by decide) hst hvlt (by
            simp only [List.length_cons] at hfit
            rw [Nat.mul_comm]; simp only [Nat.zero_add] at hval; omega)
        have ih := ih b' i' (pre ++ [v]) (fun b hb => h0 b (by simp [hb]))
          (fun hc b hb => h hc b (by simp [hb])) hpre' (by rw [value_snoc, Nat.mul_comm]; exact hh)
          (by simp only [List.length_append, List.length_cons, List.length_nil] at hfit ⊢
              rw [show pre.length + (0+1) + t.length = pre.length + (t.length + 1) by omega]; exact hfit)
        simp only [Int.toNat_natCast, e, Res.ok_bind, assertC, beq_self_eq_true, if_true]
        rw [List.dropWhile_cons_of_pos (by simp [hs]), List.filterMap_cons_some hv]
        simpa using ih

theorem workSize_eq (m : Nat) (h : m * 733 < 2^31) : workSize (m : Int) = .ok (m * 733 / 1000 + 1) := by
  unfold workSize
  rw [if_neg (by omega)]
  have h1 : Int.tdiv ((m:Int) * 733) 1000 = ((m * 733 / 1000 : Nat) : Int) := by
    rw [Int.tdiv_eq_ediv_of_nonneg (by omega)]; omega
  simp only [h1]
  rw [if_neg (by omega)]
  congr 1

/-- What is left of a string behind its leading `'1'`s. -/
theorem body_split (t : List Byte) :
    (t.takeWhile fun c => !isSpace c) = t.takeWhile (· = 49#8) ++
      ((t.dropWhile (· = 49#8)).takeWhile fun c => !isSpace c) ∧
    ((t.dropWhile fun c => !isSpace c) = (t.dropWhile (· = 49#8)).dropWhile fun c => !isSpace c) ∧
    ((t.takeWhile fun c => !isSpace c).takeWhile (· = 49#8) = t.takeWhile (· = 49#8)) := by
  have h1 : isSpace 49#8 = false := by decide
  induction t with
  | nil => simp
  | cons c t ih =>
    by_cases hc : c = 49#8
    · subst hc; simpa [h1] using ih
    · simp only [List.takeWhile_cons, hc, List.dropWhile_cons, decide_false, Bool.false_eq_true,
        if_false, List.nil_append, true_and]
      split <;> simp [hc]

theorem value_bytes_ones (t : List Byte) (body : List Byte) (h : ∀ x ∈ t, x = 49#8) :
    value 58 ((t ++ body).filterMap value?) = value 58 (body.filterMap value?) := by
  have hv : value? 49#8 = some 0 := by decide +kernel
  rw [List.filterMap_append, value_append, value_zeros 58 (t.filterMap value?) (by
    intro x hx
    obtain ⟨y, hy, e⟩ := List.mem_filterMap.mp hx
    rw [h y hy, hv] at e; simpa using e.symm)]
  simp

theorem all_takeWhile_ones (t : List Byte) : ∀ x ∈ t.takeWhile (· = 49#8), x = 49#8 := by
  induction t with
  | nil => simp
  | cons c t ih =>
    by_cases hc : c = 49#8
    · subst hc; simpa using ih
    · simp [hc]

/-- `fingera_from_base58` on a NUL-terminated string. -/
theorem fromBase58_eq_exact (cs : Bool) (s post buf : List Byte) (h0 : ∀ b ∈ s, b ≠ 0#8)
    (h : cs = true → ∀ b ∈ s, b.toNat < 128) (hones : ((s.dropWhile isSpace).takeWhile (· = 49#8)).length < 2^31)
    (hlen : ((s.dropWhile isSpace).dropWhile (· = 49#8)).length * 733 < 2^31)
    (hb : ∀ W, decode? s = some W → W.length ≤ buf.length) :
    fromBase58 cs (s ++ 0#8 :: post) s.length buf =
      match decode? s with
      | none => .ok (buf, 0)
      | some W => .ok (over W buf, W.length) := by
  unfold fromBase58
  rw [skipSpaces_eq cs s post 0 h0 h]
  simp only [Res.ok_bind]
  rw [countOnes_eq]
  simp only [Res.ok_bind, Nat.zero_add]
  generalize ht : s.dropWhile isSpace = t
  have hts : t <:+ s := by rw [← ht]; exact List.dropWhile_suffix _
  have hsum : (s.takeWhile isSpace).length + t.length = s.length := by
    rw [← ht, ← List.length_append, List.takeWhile_append_dropWhile]
  generalize ht' : t.dropWhile (· = 49#8) = t'
  have hts' : t' <:+ t := by rw [← ht']; exact List.dropWhile_suffix _
  have hsum' : (t.takeWhile (· = 49#8)).length + t'.length = t.length := by
    rw [← ht', ← List.length_append, List.takeWhile_append_dropWhile]
  have hsub : ∀ b ∈ t', b ∈ s := fun b hb => hts.subset (hts'.subset hb)
  rw [ht] at hones hlen
  rw [if_neg (by omega)]
  have hw : t'.length * 733 < 2^31 := by rw [← ht']; exact hlen
  rw [show ((s.length : Int) - ((s.takeWhile isSpace).length : Int) -
      ((t.takeWhile (· = 49#8)).length : Int)) = (t'.length : Int) by omega,
    workSize_eq t'.length hw]
  simp only [Res.ok_bind]
  generalize hsz : t'.length * 733 / 1000 + 1 = size
  have hd := digitLoop_eq cs size t' post (List.replicate size 0#8) 0 [] (fun b hb => h0 b (hsub b hb))
    (fun hc b hb => h hc b (hsub b hb)) (by simp) (by simpa [value] using holds_init 256 size (by omega))
    (by rw [← hsz]; simpa using pow_bound_dec t'.length)
  obtain ⟨s1, s2, s3⟩ := body_split t
  rw [ht'] at s1 s2
  have hall : (t.takeWhile fun c => !isSpace c).all (fun c => (value? c).isSome) =
      (t'.takeWhile fun c => !isSpace c).all (fun c => (value? c).isSome) := by
    rw [s1, List.all_append]
    have hv : value? 49#8 = some 0 := by decide +kernel
    have : (t.takeWhile (· = 49#8)).all (fun c => (value? c).isSome) = true := by
      rw [List.all_eq_true]
      intro x hx
      rw [all_takeWhile_ones t x hx, hv]; rfl
    rw [this]; simp
  by_cases hok : (t'.takeWhile fun c => !isSpace c).all (fun c => (value? c).isSome) = true
  · rw [if_pos hok] at hd
    obtain ⟨b', len, e, hh⟩ := hd
    rw [e]
    simp only [Res.ok_bind]
    rw [skipTrailing_eq cs _ post (fun hc b hb => h hc b (hsub b ((List.dropWhile_suffix _).subset hb)))]
    simp only [Res.ok_bind]
    generalize hr : (t'.dropWhile fun c => !isSpace c) = r
    have hrs : ∀ b ∈ r, b ≠ 0#8 := by
      intro b hb
      rw [← hr] at hb
      exact h0 b (hsub b ((List.dropWhile_suffix _).subset hb))
    have hall2 : r.all isSpace = true ↔ r.dropWhile isSpace = [] := by
      rw [List.all_eq_true]
      constructor
      · intro ha
        have := List.dropWhile_append_of_pos (p := isSpace) (l₁ := r) (l₂ := []) ha
        simpa using this
      · intro hn x hx
        rw [← List.takeWhile_append_dropWhile (p := isSpace) (l := r), hn, List.append_nil] at hx
        have key : ∀ l : List Byte, ∀ x ∈ l.takeWhile isSpace, isSpace x = true := by
          intro l
          induction l with
          | nil => simp
          | cons a l ih =>
            intro x hx
            by_cases ha : isSpace a = true
            · simp only [List.takeWhile_cons, ha, if_true, List.mem_cons] at hx
              rcases hx with rfl | hx
              · exact ha
              · exact ih x hx
            · simp [ha] at hx
        exact key r x hx
    by_cases hrest : r.all isSpace = true
    · rw [hall2.mp hrest, List.nil_append]
      have hdec : decode? s = some (bytes (t.takeWhile fun c => !isSpace c)) := by
        unfold decode?
        rw [ht]
        simp only [s2, hr, hall, hok, hrest, Bool.and_self, if_true]
      rw [hdec]
      have hW := hb _ hdec
      have hbytes : bytes (t.takeWhile fun c => !isSpace c) =
          List.replicate (t.takeWhile (· = 49#8)).length 0#8 ++
          (digits 256 (value 58 ((t'.takeWhile fun c => !isSpace c).filterMap value?))).map (BitVec.ofNat 8) := by
        unfold bytes
        rw [s3, s1, value_bytes_ones _ _ (all_takeWhile_ones t)]
      rw [hbytes] at hW ⊢
      simp only [rd, List.getElem?_cons_zero, Res.ok_bind, ne_eq]
      rw [if_neg (by simp)]
      rw [List.nil_append] at hh
      obtain ⟨it, e1, e2, e3, e4⟩ := skip_holds 256 size len _ b' (by omega) hh
      rw [e1]
      simp only [Res.ok_bind]
      simp only [List.length_append, List.length_replicate, List.length_map] at hW
      rw [memset_zero_over _ _ _ (by omega)]
      simp only [Res.ok_bind]
      have hlen' := hh.len
      have := out_loop (decOut b' (t.takeWhile (· = 49#8)).length it) b' id it (size - it) 0
        (List.replicate (t.takeWhile (· = 49#8)).length 0#8) buf (t.takeWhile (· = 49#8)).length (by simp) (by
          intro i hi o _
          unfold decOut
          rw [rd_ok _ _ hi]
          rfl) (by omega) (by omega)
      rw [Nat.add_zero, List.map_id] at this
      rw [this, e3]
      simp only [Res.ok_bind, List.length_append, List.length_replicate, List.length_map, Res.pure_eq, e4]
    · have hdec : decode? s = none := by
        unfold decode?
        rw [ht]
        simp only [s2, hr, hall, hok, hrest, Bool.and_false, Bool.false_eq_true, if_false]
      rw [hdec]
      have hne : r.dropWhile isSpace ≠ [] := fun h1 => hrest (hall2.mpr h1)
      obtain ⟨x, q, hx⟩ := List.exists_cons_of_ne_nil hne
      have hx0 : x ≠ 0#8 := hrs x ((List.dropWhile_suffix isSpace).subset (by rw [hx]; simp))
      rw [hx]
      simp only [List.cons_append, rd, List.getElem?_cons_zero, Res.ok_bind, ne_eq]
      rw [if_pos (by simpa using hx0)]
      rfl
  · rw [if_neg hok] at hd
    have hdec : decode? s = none := by
      unfold decode?
      rw [ht]
      simp only [hall, hok, Bool.false_and, Bool.false_eq_true, if_false]
    rw [hd, hdec]; rfl

/-- The same with a simple bound on the length. -/
theorem fromBase58_eq (cs : Bool) (s post buf : List Byte) (h0 : ∀ b ∈ s, b ≠ 0#8)
    (h : cs = true → ∀ b ∈ s, b.toNat < 128) (hlen : s.length * 733 < 2^31)
    (hb : ∀ W, decode? s = some W → W.length ≤ buf.length) :
    fromBase58 cs (s ++ 0#8 :: post) s.length buf =
      match decode? s with
      | none => .ok (buf, 0)
      | some W => .ok (over W buf, W.length) := by
  have h1 : (s.dropWhile isSpace).length ≤ s.length := (List.dropWhile_suffix _).length_le
  have h2 : ((s.dropWhile isSpace).takeWhile (· = 49#8)).length ≤ (s.dropWhile isSpace).length := (List.takeWhile_sublist _).length_le
  have h3 : ((s.dropWhile isSpace).dropWhile (· = 49#8)).length ≤ (s.dropWhile isSpace).length := (List.dropWhile_suffix _).length_le
  have h4 : ((s.dropWhile isSpace).takeWhile (· = 49#8)).length < 2^31 := by omega
  have h5 : ((s.dropWhile isSpace).dropWhile (· = 49#8)).length * 733 < 2^31 :=
    Nat.lt_of_le_of_lt (Nat.mul_le_mul_right _ (Nat.le_trans h3 h1)) hlen
  exact fromBase58_eq_exact cs s post buf h0 h h4 h5 hb

end Base58
