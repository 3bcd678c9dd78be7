import Verif.Model.CompressInteger
import Verif.Spec.Varint
import Verif.Lemmas.Basic

namespace CompressInteger
open VarintSpec

/-- Continuation part for the number `n + 1`. -/
def encC (n : Nat) : List Byte :=
  if n < 128 then [BitVec.ofNat 8 (n + 128)] else encC (n / 128 - 1) ++ [BitVec.ofNat 8 (n % 128 + 128)]
termination_by n
decreasing_by omega

def enc (n : Nat) : List Byte :=
  if n < 128 then [BitVec.ofNat 8 n] else encC (n / 128 - 1) ++ [BitVec.ofNat 8 (n % 128)]

theorem value_snoc (p : List Byte) (b : Byte) :
    value (p ++ [b]) = value p * 128 + b.toNat % 128 + (if 128 ≤ b.toNat then 1 else 0) := by
  simp [value]

theorem encC_value (n : Nat) : value (encC n) = n + 1 := by
  induction n using Nat.strongRecOn with
  | ind n ih =>
    rw [encC]
    split
    · simp only [value, List.foldl_cons, List.foldl_nil, BitVec.toNat_ofNat]; split <;> omega
    · rw [value_snoc, ih _ (by omega), BitVec.toNat_ofNat]; split <;> omega

theorem encC_cont (n : Nat) : ∀ x ∈ encC n, 128 ≤ x.toNat := by
  induction n using Nat.strongRecOn with
  | ind n ih =>
    rw [encC]
    split
    · simp; omega
    · intro x hx
      rcases List.mem_append.mp hx with h | h
      · exact ih _ (by omega) x h
      · simp at h; subst h; simp; omega

theorem enc_value (n : Nat) : value (enc n) = n := by
  rw [enc]
  split
  · simp only [value, List.foldl_cons, List.foldl_nil, BitVec.toNat_ofNat]; split <;> omega
  · rw [value_snoc, encC_value, BitVec.toNat_ofNat]; split <;> omega

theorem enc_complete (n : Nat) : Complete (enc n) := by
  rw [enc]
  split
  · exact ⟨[], _, rfl, by simp, by simp; omega⟩
  · exact ⟨_, _, rfl, encC_cont _, by simp; omega⟩

theorem byte_eta (x : Byte) (h : 128 ≤ x.toNat) : BitVec.ofNat 8 (x.toNat % 128 + 128) = x := by
  apply BitVec.eq_of_toNat_eq; have := x.isLt; simp; omega

theorem encC_unique (p : List Byte) (h : ∀ x ∈ p, 128 ≤ x.toNat) (hp : p ≠ []) :
    1 ≤ value p ∧ encC (value p - 1) = p := by
  induction hl : p.length generalizing p with
  | zero => simp at hl; contradiction
  | succ n ih =>
    obtain ⟨q, x, rfl⟩ : ∃ q x, p = q ++ [x] :=
      ⟨p.dropLast, p.getLast hp, (List.dropLast_concat_getLast hp).symm⟩
    have hx := h x (by simp)
    rw [value_snoc]
    simp only [hx, if_true]
    refine ⟨by omega, ?_⟩
    have hm := Nat.mod_lt x.toNat (show 128 > 0 by omega)
    by_cases hq : q = []
    · subst hq
      rw [encC, if_pos (by simp [value]; omega)]
      simp only [value, List.foldl_nil, List.nil_append, Nat.zero_mul, Nat.zero_add,
        Nat.add_sub_cancel, byte_eta x hx]
    · obtain ⟨h1, h2⟩ := ih q (fun y hy => h y (by simp [hy])) hq (by simpa using hl)
      rw [encC, if_neg (by omega), show (value q * 128 + x.toNat % 128 + 1 - 1) / 128 - 1 = value q - 1 by omega,
        h2, show (value q * 128 + x.toNat % 128 + 1 - 1) % 128 = x.toNat % 128 by omega, byte_eta x hx]

theorem enc_unique (s : List Byte) (h : Complete s) : enc (value s) = s := by
  obtain ⟨p, b, rfl, hp, hb⟩ := h
  have hbe : BitVec.ofNat 8 b.toNat = b := by simp
  rw [value_snoc, if_neg (by omega), Nat.mod_eq_of_lt hb]
  by_cases hq : p = []
  · subst hq; rw [enc, if_pos (by simp [value]; omega)]; simp [value]
  · obtain ⟨h1, h2⟩ := encC_unique p hp hq
    rw [enc, if_neg (by omega), show (value p * 128 + b.toNat + 0) / 128 - 1 = value p - 1 by omega, h2,
      show (value p * 128 + b.toNat + 0) % 128 = b.toNat by omega, hbe]

theorem encC_least (n : Nat) : 1 ≤ (encC n).length ∧ least (encC n).length ≤ n ∧ n < least ((encC n).length + 1) := by
  induction n using Nat.strongRecOn with
  | ind n ih =>
    rw [encC]
    split
    · simp [least]; omega
    · obtain ⟨h1, h2, h3⟩ := ih (n / 128 - 1) (by omega)
      rw [List.length_append]
      generalize (encC (n/128-1)).length = k at *
      obtain ⟨k, rfl⟩ : ∃ k', k = k' + 1 := ⟨k - 1, by omega⟩
      simp only [List.length_cons, List.length_nil, least] at *
      refine ⟨?_, ?_, ?_⟩ <;> omega

theorem enc_least (n : Nat) : 1 ≤ (enc n).length ∧ least (enc n).length ≤ n ∧
    n < least ((enc n).length + 1) := by
  rw [enc]
  split
  · simp [least]; omega
  · obtain ⟨h1, h2, h3⟩ := encC_least (n / 128 - 1)
    rw [List.length_append]
    generalize (encC (n/128-1)).length = k at *
    obtain ⟨k, rfl⟩ : ∃ k', k = k' + 1 := ⟨k - 1, by omega⟩
    simp only [List.length_cons, List.length_nil, least] at *
    refine ⟨?_, ?_, ?_⟩ <;> omega

/-! ### the C loops -/

theorem value_step (v : U64) (h : ¬ v ≤ 0x7F#64) :
    ((v >>> 7) - 1#64).toNat = v.toNat / 128 - 1 := by
  have h1 : ¬ v.toNat ≤ 127 := by simpa [BitVec.le_def] using h
  have := v.isLt
  rw [BitVec.toNat_sub_of_le]
  · simp [BitVec.toNat_ushiftRight, Nat.shiftRight_eq_div_pow]
  · rw [BitVec.le_def]; simp [BitVec.toNat_ushiftRight, Nat.shiftRight_eq_div_pow]; omega

theorem tmp_byte (v : U64) (len : Nat) :
    (((v &&& 0x7F#64) ||| (if len ≠ 0 then 0x80#64 else 0x00#64)).setWidth 8 : Byte) =
      BitVec.ofNat 8 (v.toNat % 128 + if len = 0 then 0 else 128) := by
  have h1 : ((v &&& 0x7F#64).setWidth 8 : Byte) = BitVec.ofNat 8 (v.toNat % 128) := by
    apply BitVec.eq_of_toNat_eq
    have : (v &&& 0x7F#64).toNat = v.toNat % 128 := by
      rw [BitVec.toNat_and]; exact Nat.and_two_pow_sub_one_eq_mod _ 7
    simp only [BitVec.toNat_setWidth, this, BitVec.toNat_ofNat]
  have h2 : ∀ m : Fin 128, BitVec.ofNat 8 m.1 ||| 0x80#8 = BitVec.ofNat 8 (m.1 + 128) := by decide
  have h3 := h2 ⟨v.toNat % 128, by omega⟩
  rw [BitVec.setWidth_or, h1]
  by_cases hl : len = 0
  · simp [hl]
  · simp only [ne_eq, hl, not_false_eq_true, if_true, if_false]
    exact h3

/-- Digits, least significant first; `c`: all are continuation bytes. -/
def encRev (c : Bool) (n : Nat) : List Byte := (if c then encC n else enc n).reverse

theorem encRev_step (c : Bool) (n : Nat) (h : ¬ n < 128) :
    encRev c n = BitVec.ofNat 8 (n % 128 + if c then 128 else 0) :: encRev true (n / 128 - 1) := by
  cases c
  · simp only [encRev, Bool.false_eq_true, if_false, if_true]
    rw [enc, if_neg h]; simp
  · simp only [encRev, if_true]
    conv => lhs; rw [encC, if_neg h]
    simp

theorem encRev_last (c : Bool) (n : Nat) (h : n < 128) :
    encRev c n = [BitVec.ofNat 8 (n % 128 + if c then 128 else 0)] := by
  cases c
  · simp only [encRev, Bool.false_eq_true, if_false]
    rw [enc, if_pos h, Nat.mod_eq_of_lt h]; simp
  · simp only [encRev, if_true]
    rw [encC, if_pos h, Nat.mod_eq_of_lt h]; simp

theorem encLoop_eq (fuel : Nat) (v : U64) (W tmp : List Byte) (h : v.toNat < least (fuel + 1))
    (ht : W.length + fuel ≤ tmp.length) :
    encLoop (fuel + 1) v W.length (over W tmp) =
      .ok (W.length + (encRev (W.length ≠ 0) v.toNat).length - 1,
        over (W ++ encRev (W.length ≠ 0) v.toNat) tmp) := by
  induction fuel generalizing v W with
  | zero => simp [least] at h
  | succ fuel ih =>
    rw [encLoop, wr_over _ _ _ _ rfl (by omega), tmp_byte]
    simp only [Res.ok_bind]
    by_cases hv : v ≤ 0x7F#64
    · rw [if_pos hv]
      have h1 : v.toNat < 128 := by have : v.toNat ≤ 127 := by simpa [BitVec.le_def] using hv
                                    omega
      rw [encRev_last _ _ h1]
      by_cases hw : W.length = 0 <;> simp [hw]
    · rw [if_neg hv]
      have h1 : ¬ v.toNat < 128 := by have : ¬ v.toNat ≤ 127 := by simpa [BitVec.le_def] using hv
                                      omega
      have := ih ((v >>> 7) - 1#64) (W ++ [BitVec.ofNat 8 (v.toNat % 128 + if W.length = 0 then 0 else 128)])
        (by rw [value_step v hv]; 
            match fuel, h with
            | 0, h => simp [least] at h; omega
            | f+1, h => simp only [least] at h ⊢; omega)
        (by simp; omega)
      rw [List.length_append, List.length_cons, List.length_nil] at this
      rw [this, value_step v hv, encRev_step (decide (W.length ≠ 0)) _ h1]
      by_cases hw : W.length = 0 <;> simp [hw] <;> omega

theorem least_11 (v : U64) : v.toNat < least 11 := by
  have := v.isLt
  have : 2^64 < least 11 := by decide
  omega

theorem copy_loop (D out : List Byte) (tmp : List Byte) (k j : Nat) (hD : j + k = D.length)
    (ht : ∃ rest, tmp = D.reverse ++ rest) (ho : D.length ≤ out.length) :
    forLoop (copyBody tmp (D.length - 1)) j k (over (D.take j) out) = .ok (over D out) := by
  induction k generalizing j with
  | zero => simp [forLoop]; rw [List.take_of_length_le (by omega)]
  | succ k ih =>
    obtain ⟨rest, rfl⟩ := ht
    have hj : j < D.length := by omega
    have hr : rd (D.reverse ++ rest) (D.length - 1 - j) = .ok D[j] := by
      rw [rd_ok _ _ (by simp; omega)]
      congr 1
      rw [List.getElem_append_left (by simp; omega), List.getElem_reverse]
      congr 1; omega
    rw [forLoop, copyBody, hr]
    simp only [Res.ok_bind]
    rw [wr_over _ _ _ _ (by simp; omega) (by simp; omega), ← List.take_succ_eq_append_getElem hj]
    exact ih (j+1) (by omega)

theorem enc_length_le (v : U64) : (enc v.toNat).length ≤ 10 := by
  obtain ⟨h1, h2, h3⟩ := enc_least v.toNat
  have h11 := least_11 v
  have hm : ∀ k, least (k+1) ≤ least (k+2) := by
    intro k
    induction k with
    | zero => simp [least]
    | succ k ih => simp only [least] at ih ⊢; omega
  have hm2 : ∀ k, least 11 ≤ least (k + 11) := by
    intro k
    induction k with
    | zero => exact Nat.le_refl _
    | succ k ih => exact Nat.le_trans ih (hm (k+10))
  by_cases h : (enc v.toNat).length ≤ 10
  · exact h
  · have := hm2 ((enc v.toNat).length - 11)
    rw [show (enc v.toNat).length - 11 + 11 = (enc v.toNat).length by omega] at this
    omega

theorem encodeVarint_eq (tmp0 buf : List Byte) (v : U64) (ht : tmp0.length = 10)
    (hb : (enc v.toNat).length ≤ buf.length) :
    encodeVarint tmp0 v buf = .ok (over (enc v.toNat) buf, (enc v.toNat).length) := by
  have h := encLoop_eq 10 v [] tmp0 (least_11 v) (by simp; omega)
  have hl := (enc_least v.toNat).1
  simp only [over_nil, List.length_nil, ne_eq, not_true_eq_false, decide_false, List.nil_append,
    Nat.zero_add] at h
  unfold encodeVarint
  rw [h]
  simp only [Res.ok_bind, encRev, Bool.false_eq_true, if_false, List.length_reverse,
    show (enc v.toNat).length - 1 + 1 = (enc v.toNat).length by omega]
  have := copy_loop (enc v.toNat) buf (over (enc v.toNat).reverse tmp0) (enc v.toNat).length 0 (by omega)
    ⟨_, rfl⟩ hb
  simp only [List.take_zero, over_nil] at this
  rw [this]; rfl

/-- The copy runs out of an output object that is too small. -/
theorem copy_loop_ub (D out : List Byte) (tmp : List Byte) (k j : Nat) (hD : j + k = D.length)
    (ht : ∃ rest, tmp = D.reverse ++ rest) (hj : j ≤ out.length) (ho : out.length < D.length) :
    forLoop (copyBody tmp (D.length - 1)) j k (over (D.take j) out) = .ub := by
  induction k generalizing j with
  | zero => omega
  | succ k ih =>
    obtain ⟨rest, rfl⟩ := ht
    have hj' : j < D.length := by omega
    have hr : rd (D.reverse ++ rest) (D.length - 1 - j) = .ok D[j] := by
      rw [rd_ok _ _ (by simp; omega)]
      congr 1
      rw [List.getElem_append_left (by simp; omega), List.getElem_reverse]
      congr 1; omega
    rw [forLoop, copyBody, hr]
    simp only [Res.ok_bind]
    by_cases he : j = out.length
    · rw [wr, if_neg (by simp [over]; omega)]; rfl
    · rw [wr_over _ _ _ _ (by simp; omega) (by simp; omega), ← List.take_succ_eq_append_getElem hj']
      exact ih (j+1) (by omega) (by omega)

theorem encodeVarint_ub (tmp0 buf : List Byte) (v : U64) (ht : tmp0.length = 10)
    (hb : buf.length < (enc v.toNat).length) : encodeVarint tmp0 v buf = .ub := by
  have h := encLoop_eq 10 v [] tmp0 (least_11 v) (by simp; omega)
  have hl := (enc_least v.toNat).1
  simp only [over_nil, List.length_nil, ne_eq, not_true_eq_false, decide_false, List.nil_append,
    Nat.zero_add] at h
  unfold encodeVarint
  rw [h]
  simp only [Res.ok_bind, encRev, Bool.false_eq_true, if_false, List.length_reverse,
    show (enc v.toNat).length - 1 + 1 = (enc v.toNat).length by omega]
  have := copy_loop_ub (enc v.toNat) buf (over (enc v.toNat).reverse tmp0) (enc v.toNat).length 0 (by omega)
    ⟨_, rfl⟩ (Nat.zero_le _) hb
  simp only [List.take_zero, over_nil] at this
  rw [this]; rfl

/-! ### decoding -/

/-- 64-bit accumulator of the decoder. -/
theorem dec_step (n : Nat) (b : Byte) :
    ((BitVec.ofNat 64 n <<< 7) ||| (b &&& 0x7F#8).setWidth 64) =
      BitVec.ofNat 64 (n * 128 + b.toNat % 128) := by
  have h1 : (b &&& 0x7F#8).toNat = b.toNat % 128 := by
    rw [BitVec.toNat_and]; exact Nat.and_two_pow_sub_one_eq_mod _ 7
  have h2 : ((b &&& 0x7F#8).setWidth 64 : U64) = BitVec.ofNat 64 (b.toNat % 128) := by
    apply BitVec.eq_of_toNat_eq; simp only [BitVec.toNat_setWidth, h1, BitVec.toNat_ofNat]
  have hm := Nat.mod_lt b.toNat (show 128 > 0 by omega)
  rw [h2]
  apply BitVec.eq_of_toNat_eq
  rw [BitVec.toNat_or, BitVec.toNat_shiftLeft, BitVec.toNat_ofNat, BitVec.toNat_ofNat, BitVec.toNat_ofNat,
    Nat.shiftLeft_eq]
  have e : n % 2^64 * 2^7 % 2^64 = 2^7 * (n % 2^57) := by omega
  rw [e, Nat.mod_eq_of_lt (a := b.toNat % 128) (by omega), ← Nat.two_pow_add_eq_or_of_lt (by omega)]
  omega

theorem topbit (b : Byte) : (b &&& 0x80#8 ≠ 0#8) ↔ 128 ≤ b.toNat := by
  revert b; decide +kernel

theorem value_foldl (p : List Byte) (x : Byte) : value (p ++ [x]) =
    value p * 128 + x.toNat % 128 + (if 128 ≤ x.toNat then 1 else 0) := value_snoc p x

/-- All continuation bytes: the loop runs through. -/
theorem decLoop_cont (buf : List Byte) (k j : Nat) (hk : j + k ≤ buf.length)
    (h : ∀ (i : Nat) (_ : i < buf.length), j ≤ i → i < j + k → 128 ≤ buf[i].toNat) :
    forLoopB (decBody buf) j k (BitVec.ofNat 64 (value (buf.take j))) =
      .ok (.next (BitVec.ofNat 64 (value (buf.take (j + k))))) := by
  induction k generalizing j with
  | zero => rfl
  | succ k ih =>
    have hj : j < buf.length := by omega
    have hb := h j hj (by omega) (by omega)
    rw [forLoopB, decBody, rd_ok _ _ hj]
    simp only [Res.ok_bind]
    rw [if_pos ((topbit _).mpr hb), dec_step]
    simp only [Res.pure_eq, Res.ok_bind]
    have hv : value (buf.take (j+1)) = value (buf.take j) * 128 + buf[j].toNat % 128 + 1 := by
      rw [List.take_succ_eq_append_getElem hj, value_snoc, if_pos hb]
    have e : BitVec.ofNat 64 (value (buf.take j) * 128 + buf[j].toNat % 128) + 1#64 =
        BitVec.ofNat 64 (value (buf.take (j+1))) := by rw [hv]; exact (BitVec.ofNat_add _ 1).symm
    rw [e, ih (j+1) (by omega) (fun i hi h1 h2 => h i hi (by omega) (by omega))]
    rw [show j + 1 + k = j + (k + 1) by omega]

theorem forLoopB_add {σ ρ : Type} (f : Nat → σ → Res (Step σ ρ)) (a b i : Nat) (s s' : σ)
    (h : forLoopB f i a s = .ok (.next s')) :
    forLoopB f i (a + b) s = forLoopB f (i + a) b s' := by
  induction a generalizing i s with
  | zero => simp [forLoopB] at h; subst h; simp
  | succ a ih =>
    rw [show a + 1 + b = (a + b) + 1 by omega, forLoopB]
    rw [forLoopB] at h
    match hf : f i s, h with
    | .ok (.next t), h =>
      simp only [Res.ok_bind] at h ⊢
      rw [ih (i+1) t h]; congr 1; omega
    | .ok (.stop r), h => simp at h
    | .ub, h => simp at h
    | .abort, h => simp at h

theorem decodeVarint_stop (p : List Byte) (b : Byte) (post : List Byte) (size : Nat)
    (hp : ∀ x ∈ p, 128 ≤ x.toNat) (hb : b.toNat < 128) (h1 : p.length < size) (h2 : p.length < 10) :
    decodeVarint (p ++ b :: post) size =
      .ok (BitVec.ofNat 64 (value (p ++ [b])), p.length + 1) := by
  have hl := decLoop_cont (p ++ b :: post) p.length 0 (by simp) (by
    intro i hi _ h4
    rw [List.getElem_append_left (by omega)]
    exact hp _ (List.getElem_mem _))
  unfold decodeVarint
  generalize hsz : (if size > 10 then 10 else size) = sz
  have hsz2 : p.length < sz := by rw [← hsz]; split <;> omega
  obtain ⟨r, rfl⟩ : ∃ r, sz = p.length + (r + 1) := ⟨sz - p.length - 1, by omega⟩
  simp only [Nat.zero_add, List.take_zero, List.take_left] at hl
  have hz : (0#64 : U64) = BitVec.ofNat 64 (value []) := rfl
  simp only [hz]
  rw [forLoopB_add _ _ _ _ _ _ hl, forLoopB, decBody, rd_append_mid _ _ _ _ (by omega)]
  simp only [Res.ok_bind]
  rw [if_neg (by rw [topbit]; omega), dec_step, value_snoc, if_neg (by omega)]
  simp

theorem decodeVarint_fail (buf : List Byte) (size : Nat) (hs : min size 10 ≤ buf.length)
    (h : ∀ x ∈ buf.take (min size 10), 128 ≤ x.toNat) :
    decodeVarint buf size = .ok (BitVec.ofNat 64 (value (buf.take (min size 10))), 0) := by
  have hl := decLoop_cont buf (min size 10) 0 (by omega) (by
    intro i hi _ h4
    apply h
    rw [List.mem_take_iff_getElem]
    exact ⟨i, by omega, rfl⟩)
  unfold decodeVarint
  have : (if size > 10 then 10 else size) = min size 10 := by split <;> omega
  rw [this]
  simp only [Nat.zero_add, List.take_zero] at hl
  have hz : (0#64 : U64) = BitVec.ofNat 64 (value []) := rfl
  dsimp only
  rw [hz, hl]; rfl

end CompressInteger
