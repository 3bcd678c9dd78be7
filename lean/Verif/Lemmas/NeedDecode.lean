import Verif.Lemmas.Hex
import Verif.Lemmas.Base64
import Verif.Lemmas.Bech32
/-! How much of its output object a decoder needs: the loops of the decoders for objects of every size. -/

theorem wr_over_full {α : Type} (W out : List α) (b : α) (i : Nat) (_hi : W.length ≤ i) (hW : W.length ≤ out.length) (h : out.length ≤ i) :
    wr (over W out) i b = .ub := by
  rw [wr, if_neg]
  rw [over, List.length_append, List.length_drop]
  omega

namespace Hex
open HexSpec

theorem from_loop_total (str buf : List Byte) (k j : Nat) (W : List Byte)
    (hs : 2 * (j + k) ≤ str.length) (hW : W.length ≤ buf.length) :
    (do
      match ← forLoopB (fromBody str) j k (over W buf, W.length) with
      | .next s => pure s
      | .stop s => pure s) =
      if W.length + (decode ((str.drop (2*j)).take (2*k))).length ≤ buf.length then
        .ok (over (W ++ decode ((str.drop (2*j)).take (2*k))) buf, W.length + (decode ((str.drop (2*j)).take (2*k))).length)
      else .ub := by
  induction k generalizing j W with
  | zero =>
    rw [if_pos (by simpa [decode] using hW)]
    simp [decode, forLoopB]
  | succ k ih =>
    have h0 : 2*j < str.length := by omega
    have h1 : 2*j+1 < str.length := by omega
    have hd : (str.drop (2*j)).take (2*(k+1)) =
        str[2*j] :: str[2*j+1] :: (str.drop (2*(j+1))).take (2*k) := by
      rw [List.drop_eq_getElem_cons h0, List.drop_eq_getElem_cons h1,
        show 2*(k+1) = 2*k+1+1 by omega, List.take_succ_cons, List.take_succ_cons,
        show 2*j+1+1 = 2*(j+1) by omega]
    simp only [forLoopB, fromBody, rd_ok _ _ h0, rd_ok _ _ h1, Res.ok_bind, rd_HEX_MAP, hd, decode]
    rcases hv : value? str[2*j] with _ | x
    · simp [hW]
    · rcases hw : value? str[2*j+1] with _ | y
      · simp [hW]
      · have hx := value_lt hv
        have hy := value_lt hw
        simp only [ofNat_ne_ff x hx, ofNat_ne_ff y hy, or_self, if_false,
          nibbles_join x y hx hy]
        by_cases hf : W.length < buf.length
        · rw [wr_over _ _ _ _ rfl hf]
          simp only [Res.ok_bind, Res.pure_eq]
          have := ih (j+1) (W ++ [BitVec.ofNat 8 (16*x+y)]) (by omega) (by simp; omega)
          simp only [Res.pure_eq, List.length_append, List.length_singleton] at this
          rw [this]
          simp only [List.length_cons, List.append_assoc, List.cons_append, List.nil_append]
          rw [show ∀ a : Nat, W.length + 1 + a = W.length + (a + 1) by intros; omega]
        · rw [wr_over_full _ _ _ _ (Nat.le_refl _) hW (by omega)]
          rw [if_neg (by rw [List.length_cons]; omega)]
          rfl

theorem decode_take_even (l : List Byte) (m : Nat) : decode (l.take (2*(m/2))) = decode (l.take m) := by
  induction l using decode.induct generalizing m with
  | case1 a b rest x hx y hy ih =>
    match m with
    | 0 => rfl
    | 1 => simp [decode]
    | m+2 =>
      rw [show 2 * ((m+2)/2) = 2*(m/2) + 1 + 1 by omega]
      simp only [List.take_succ_cons, decode]
      rw [ih m]
  | case2 a b rest h =>
    match m with
    | 0 => rfl
    | 1 => simp [decode]
    | m+2 =>
      rw [show 2 * ((m+2)/2) = 2*(m/2) + 1 + 1 by omega]
      simp only [List.take_succ_cons, decode]
  | case3 l h =>
    match l, h with
    | [], _ => simp
    | [a], _ =>
      match m with
      | 0 => rfl
      | 1 => simp [decode]
      | m+2 => rw [show 2 * ((m+2)/2) = 2*(m/2) + 1 + 1 by omega]; simp
    | a :: b :: r, h => exact absurd rfl (h a b r)

/-- `fingera_from_hex` for every output object. -/
theorem fromHex_total (str buf : List Byte) (n : Nat) (hn : n ≤ str.length) :
    fromHex str n buf =
      if (decode (str.take n)).length ≤ buf.length then .ok (over (decode (str.take n)) buf, (decode (str.take n)).length)
      else .ub := by
  have := from_loop_total str buf (n/2) 0 [] (by omega) (by simp)
  simp only [over_nil, List.length_nil, Nat.mul_zero, List.drop_zero, List.nil_append, Nat.zero_add, decode_take_even] at this
  exact this

end Hex

namespace Base64
open Base64Spec

theorem wr_lack {α : Type} (W out : List α) (b0 b1 b2 : α) (i : Nat) (hi : i = W.length) (hW : W.length ≤ out.length)
    (h : out.length < W.length + 3) {β : Type} (f : List α → Res β) :
    (do
      let m ← wr (over W out) i b0
      let m ← wr m (i+1) b1
      let m ← wr m (i+2) b2
      f m) = .ub := by
  by_cases h0 : W.length < out.length
  · rw [wr_over _ _ _ _ hi h0, Res.ok_bind]
    by_cases h1 : W.length + 1 < out.length
    · rw [wr_over _ _ _ _ (by simp; omega) (by simp; omega), Res.ok_bind,
        wr_over_full _ _ _ _ (by simp; omega) (by simp; omega) (by omega)]
      rfl
    · rw [wr_over_full _ _ _ _ (by simp; omega) (by simp; omega) (by omega)]
      rfl
  · rw [wr_over_full _ _ _ _ (by omega) hW (by omega)]
    rfl

theorem wr_lack2 {α : Type} (W out : List α) (b0 b1 : α) (i : Nat) (hi : i = W.length) (hW : W.length ≤ out.length)
    (h : out.length < W.length + 2) {β : Type} (f : List α → Res β) :
    (do
      let m ← wr (over W out) i b0
      let m ← wr m (i+1) b1
      f m) = .ub := by
  by_cases h0 : W.length < out.length
  · rw [wr_over _ _ _ _ hi h0, Res.ok_bind, wr_over_full _ _ _ _ (by simp; omega) (by simp; omega) (by omega)]
    rfl
  · rw [wr_over_full _ _ _ _ (by omega) hW (by omega)]
    rfl

theorem decTail_total (url : Bool) (str buf W : List Byte) (n t : Nat) (ht : t < 4)
    (hs : 4 * n + t ≤ str.length) (hW : W.length = 3 * n) (hb : W.length ≤ buf.length) :
    decTail url str n t (over W buf) =
      if 3 * n + (decodeRaw url ((str.drop (4*n)).take t)).length ≤ buf.length then
        .ok (over (W ++ decodeRaw url ((str.drop (4*n)).take t)) buf, 3 * n + (decodeRaw url ((str.drop (4*n)).take t)).length)
      else .ub := by
  match t, ht with
  | 0, _ => simp [decTail, decodeRaw_0]; omega
  | 1, _ =>
    have h0 : 4*n < str.length := by omega
    have hl : (str.drop (4*n)).take 1 = [str[4*n]] := by
      rw [List.drop_eq_getElem_cons h0]; rfl
    rw [hl, decodeRaw_1]
    simp [decTail]; omega
  | 2, _ =>
    have h0 : 4*n < str.length := by omega
    have h1 : 4*n+1 < str.length := by omega
    have hl : (str.drop (4*n)).take 2 = [str[4*n], str[4*n+1]] := by
      rw [List.drop_eq_getElem_cons h0, List.drop_eq_getElem_cons h1]; rfl
    rw [hl, decodeRaw_2]
    simp only [decTail, if_true, rd_ok _ _ h0, rd_ok _ _ h1, Res.ok_bind, rd_dec]
    split
    · rw [if_pos (by simp; omega)]; simp
    · by_cases hf : W.length < buf.length
      · rw [wr_over _ _ _ _ (by omega) (by omega), if_pos (by simp; omega)]; simp
      · rw [wr_over_full _ _ _ _ (by omega) hb (by omega), if_neg (by simp; omega)]; rfl
  | 3, _ =>
    have h0 : 4*n < str.length := by omega
    have h1 : 4*n+1 < str.length := by omega
    have h2 : 4*n+2 < str.length := by omega
    have hl : (str.drop (4*n)).take 3 = [str[4*n], str[4*n+1], str[4*n+2]] := by
      rw [List.drop_eq_getElem_cons h0, List.drop_eq_getElem_cons h1,
        List.drop_eq_getElem_cons h2]; rfl
    rw [hl, decodeRaw_3]
    have c1 : ¬ (3:Nat) = 2 := by decide
    simp only [decTail, c1, if_false, if_true, rd_ok _ _ h0, rd_ok _ _ h1, rd_ok _ _ h2, Res.ok_bind,
      rd_dec]
    split
    · rw [if_pos (by simp; omega)]; simp
    · by_cases hf : W.length + 2 ≤ buf.length
      · rw [wr_over _ _ _ _ (by omega) (by omega)]
        simp only [Res.ok_bind]
        rw [wr_over _ _ _ _ (by simp; omega) (by simp; omega), if_pos (by simp; omega)]; simp
      · rw [wr_lack2 W buf _ _ _ (by omega) hb (by omega), if_neg (by simp; omega)]

theorem dec_loop_total (url : Bool) (str buf : List Byte) (N t k j : Nat) (W : List Byte) (ht : t < 4)
    (hN : j + k = N) (hs : 4 * N + t ≤ str.length) (hW : W.length = 3 * j) (hb : W.length ≤ buf.length) :
    (do
      match ← forLoopB (decBody url str) j k (over W buf) with
      | .stop r => pure r
      | .next buf => decTail url str N t buf) =
    if 3 * j + (decodeRaw url ((str.drop (4*j)).take (4*k+t))).length ≤ buf.length then
      .ok (over (W ++ decodeRaw url ((str.drop (4*j)).take (4*k+t))) buf,
        3 * j + (decodeRaw url ((str.drop (4*j)).take (4*k+t))).length)
    else .ub := by
  induction k generalizing j W with
  | zero =>
    have : j = N := by omega
    subst this
    simpa [forLoopB] using decTail_total url str buf W j t ht hs hW hb
  | succ k ih =>
    have h0 : 4*j < str.length := by omega
    have h1 : 4*j+1 < str.length := by omega
    have h2 : 4*j+2 < str.length := by omega
    have h3 : 4*j+3 < str.length := by omega
    have hl : (str.drop (4*j)).take (4*(k+1)+t) = str[4*j] :: str[4*j+1] :: str[4*j+2] ::
        str[4*j+3] :: (str.drop (4*(j+1))).take (4*k+t) := by
      rw [List.drop_eq_getElem_cons h0, List.drop_eq_getElem_cons h1,
        List.drop_eq_getElem_cons h2, List.drop_eq_getElem_cons h3,
        show 4*(k+1)+t = (4*k+t)+1+1+1+1 by omega]
      simp only [List.take_succ_cons]
      rw [show 4*j+3+1 = 4*(j+1) by omega]
    rw [hl, decodeRaw_cons4]
    simp only [forLoopB, decBody, rd_ok _ _ h0, rd_ok _ _ h1, rd_ok _ _ h2, rd_ok _ _ h3,
      Res.ok_bind, rd_dec]
    split
    · rw [if_pos (by simp; omega)]; simp
    · by_cases hf : W.length + 3 ≤ buf.length
      · rw [wr_over _ _ _ _ (by omega) (by omega)]
        simp only [Res.ok_bind]
        rw [wr_over _ _ _ _ (by simp; omega) (by simp; omega)]
        simp only [Res.ok_bind]
        rw [wr_over _ _ _ _ (by simp; omega) (by simp; omega)]
        simp only [Res.ok_bind, Res.pure_eq]
        have := ih (j+1) (W ++ [(tblVal url str[4*j] <<< 2) ||| (tblVal url str[4*j+1] >>> 4)] ++
          [(tblVal url str[4*j+1] <<< 4) ||| (tblVal url str[4*j+2] >>> 2)] ++
          [(tblVal url str[4*j+2] <<< 6) ||| tblVal url str[4*j+3]]) (by omega) (by simp; omega) (by simp; omega)
        simp only [Res.pure_eq] at this
        rw [this]
        simp only [List.length_cons, List.append_assoc, List.cons_append, List.nil_append]
        rw [show ∀ a : Nat, 3 * (j + 1) + a = 3 * j + (a + 1 + 1 + 1) by intros; omega]
      · have := wr_lack W buf ((tblVal url str[4*j] <<< 2) ||| (tblVal url str[4*j+1] >>> 4))
          ((tblVal url str[4*j+1] <<< 4) ||| (tblVal url str[4*j+2] >>> 2)) ((tblVal url str[4*j+2] <<< 6) ||| tblVal url str[4*j+3])
          (3*j) (by omega) hb (by omega) (fun m => (pure (Step.next m) : Res (Step (List Byte) (List Byte × Nat))))
        simp only [Res.pure_eq] at this
        simp only [Res.pure_eq]
        rw [this, if_neg (by simp; omega)]
        rfl

/-- `_fingera_from_base64` for every output object. -/
theorem fromBase64Impl_total (str buf : List Byte) (n : Nat) (url : Bool) (hn : n ≤ str.length) :
    fromBase64Impl str n buf url =
      if (decodeRaw url (str.take n)).length ≤ buf.length then
        .ok (over (decodeRaw url (str.take n)) buf, (decodeRaw url (str.take n)).length) else .ub := by
  have := dec_loop_total url str buf (n/4) (n%4) (n/4) 0 [] (by omega) (by omega) (by omega) (by simp) (by simp)
  simp only [over_nil, Nat.mul_zero, List.drop_zero, List.nil_append, Nat.zero_add,
    show 4 * (n/4) + n % 4 = n by omega] at this
  exact this

end Base64

namespace Bech32
open Bech32Spec

theorem decode_loop_total (str p l q W out : List Byte) (o : Nat) (hs : str = p ++ l ++ q)
    (ho : p.length = o + W.length) (hW : W.length ≤ out.length) :
    forLoopB (decodeBody str o) W.length l.length (over W out) =
    if W.length + (vals l).length ≤ out.length then
      (if ∃ c ∈ l, value? c = none then .ok (.stop (over (W ++ vals l) out))
      else .ok (.next (over (W ++ vals l) out)))
    else .ub := by
  induction l generalizing p W with
  | nil => simp [forLoopB, vals, hW]
  | cons c l ih =>
    have hr : rd str (o + W.length) = .ok c := by
      rw [hs, List.append_assoc, ← ho]
      exact rd_append_mid p c _ _ rfl
    rw [List.length_cons, forLoopB, decodeBody, hr, Res.ok_bind, rd_decode, Res.ok_bind]
    cases hv : value? c with
    | none =>
      rw [vals_cons_none l hv]
      simp [hv, hW]
    | some v =>
      have hne : ¬ ((v.toNat : Int) = -1) := by omega
      simp only [hne, if_false]
      have hofi : BitVec.ofInt 8 (v.toNat : Int) = v := by
        rw [BitVec.ofInt_natCast, BitVec.ofNat_toNat, BitVec.setWidth_eq]
      rw [hofi, vals_cons_some l hv]
      by_cases hf : W.length < out.length
      · rw [wr_over W out _ _ rfl hf]
        simp only [Res.ok_bind, Res.pure_eq]
        have ih := ih (p ++ [c]) (W ++ [v]) (by rw [hs]; simp) (by simp; omega) (by simp; omega)
        rw [show (W ++ [v]).length = W.length + 1 by simp] at ih
        rw [ih]
        have : (∃ x ∈ c :: l, value? x = none) ↔ ∃ x ∈ l, value? x = none := by
          simp [hv]
        simp only [this, List.append_assoc, List.cons_append, List.nil_append, List.length_cons]
        rw [show W.length + 1 + (vals l).length = W.length + ((vals l).length + 1) by omega]
      · rw [wr_over_full _ _ _ _ (Nat.le_refl _) hW (by omega), if_neg (by rw [List.length_cons]; omega)]
        rfl

theorem decodeChars_total (p l q out : List Byte) :
    decodeChars (p ++ l ++ q) p.length l.length out =
      if (vals l).length ≤ out.length then .ok (over (vals l) out, decide (∀ c ∈ l, value? c ≠ none)) else .ub := by
  have := decode_loop_total (p ++ l ++ q) p l q [] out p.length rfl rfl (by simp)
  rw [over_nil, List.length_nil, Nat.zero_add] at this
  rw [decodeChars, this]
  by_cases hf : (vals l).length ≤ out.length
  · rw [if_pos hf, if_pos hf]
    by_cases h : ∃ c ∈ l, value? c = none
    · rw [if_pos h]
      have : ¬ ∀ c ∈ l, value? c ≠ none := by
        obtain ⟨c, hc, hv⟩ := h
        exact fun h => h c hc hv
      simp only [Res.ok_bind, Res.pure_eq, List.nil_append, decide_eq_false this]
    · rw [if_neg h]
      have : ∀ c ∈ l, value? c ≠ none := fun c hc hv => h ⟨c, hc, hv⟩
      simp only [Res.ok_bind, Res.pure_eq, List.nil_append, decide_eq_true this]
  · rw [if_neg hf, if_neg hf]
    rfl

/-- `decodeAt_eq` for every object for the data. -/
theorem decodeAt_total (a d k q hrp b32 : List Byte) (hk : k.length = 6) (ha : a.length ≤ hrp.length) :
    decodeAt (a ++ [49#8] ++ d ++ k ++ q) (a ++ [49#8] ++ d ++ k).length a.length hrp b32 =
      if (vals d).length ≤ b32.length then
        .ok ⟨if ∀ c ∈ d ++ k, value? c ≠ none then
                (if polymod (hrpExpand (a.map lower) ++ vals d ++ vals k) = 1#30 then (d.length : Int) else -5)
              else -4,
            over (a.map lower) hrp, a.length, over (vals d) b32⟩
      else .ub := by
  rw [decodeAt]
  have e1 := wr_loop (fun i hrp => do wr hrp i (toLower (← rd (a ++ [49#8] ++ d ++ k ++ q) i))) []
    (a.map lower) hrp (by
      intro i hi mem
      have hi' : i < a.length := by simpa using hi
      simp only [List.append_assoc]
      rw [rd_ok _ i (by simp; omega), List.getElem_append_left hi']
      simp only [Res.ok_bind, List.length_nil, Nat.zero_add, List.getElem_map, toLower_eq]) (by simpa using ha)
  rw [over_nil, List.nil_append, List.length_map] at e1
  rw [e1]
  simp only [Res.ok_bind]
  have hn : untilPtr (a.length + 1) ((a ++ [49#8] ++ d ++ k).length - 6) = .ok d.length := by
    rw [untilPtr, if_pos (by simp; omega)]
    congr 1; simp; omega
  rw [hn]
  simp only [Res.ok_bind]
  have e2 := decodeChars_total (a ++ [49#8]) d (k ++ q) b32
  rw [show (a ++ [49#8]).length = a.length + 1 from by simp,
    show a ++ [49#8] ++ d ++ (k ++ q) = a ++ [49#8] ++ d ++ k ++ q by simp] at e2
  rw [e2]
  by_cases hf : (vals d).length ≤ b32.length
  case neg => rw [if_neg hf, if_neg hf]; rfl
  rw [if_pos hf, if_pos hf]
  simp only [Res.ok_bind]
  by_cases hgd : ∀ c ∈ d, value? c ≠ none
  · have e3 := decodeChars_eq (a ++ [49#8] ++ d) k q (List.replicate 6 0xAA#8) (by simp; omega)
    rw [decide_eq_true hgd]
    rw [show (a ++ [49#8] ++ d ++ k).length - 6 = (a ++ [49#8] ++ d).length by simp; omega]
    rw [hk] at e3
    rw [e3]
    simp only [Bool.not_true, Bool.false_eq_true, if_false, Res.ok_bind]
    by_cases hgk : ∀ c ∈ k, value? c ≠ none
    · have hall : ∀ c ∈ d ++ k, value? c ≠ none := by
        intro c hc
        rcases List.mem_append.mp hc with h | h
        · exact hgd c h
        · exact hgk c h
      rw [decide_eq_true hgk, if_pos hall]
      simp only [Bool.not_true, Bool.false_eq_true, if_false]
      have hvl := (vals_all d hgd).2
      have hkl := (vals_all k hgk).2
      have t1 : (over (a.map lower) hrp).take a.length = a.map lower := by
        rw [over, List.take_left' (by simp)]
      have t2 : (over (vals d) b32).take d.length = vals d := by
        rw [over, List.take_left' hvl]
      have t3 : (over (vals k) (List.replicate 6 0xAA#8)).take 6 = vals k := by
        rw [over, List.take_left' (by omega)]
      rw [verifyChecksum_eq _ _ _ _ _ (by rw [over_length _ _ (by simpa using ha)]; exact ha)
        (by rw [over_length _ _ (by omega)]; omega)
        (by rw [over_length _ _ (by simp; omega)]; simp), t1, t2, t3]
      simp only [Res.ok_bind, Res.pure_eq]
      congr 2
      simp only [decide_eq_true_eq]
    · have hall : ¬ ∀ c ∈ d ++ k, value? c ≠ none := fun h => hgk fun c hc => h c (by simp [hc])
      rw [decide_eq_false hgk, if_neg hall]
      rfl
  · have hall : ¬ ∀ c ∈ d ++ k, value? c ≠ none := fun h => hgd fun c hc => h c (by simp [hc])
    rw [decide_eq_false hgd, if_neg hall]
    rfl

end Bech32
