import Verif.Model.Bech32
import Verif.Lemmas.Bech32Poly
import Verif.Lemmas.Basic

namespace Bech32
open Bech32Spec (step polymod hrpExpand char lower isUpper isLower V fb lin unpack)

/-! ### the register -/

theorem rd_poly : ∀ b0 b1 b2 b3 b4 : Bool,
    rd BECH32_POLY_TABLE (b0.toNat + 2 * b1.toNat + 4 * b2.toNat + 8 * b3.toNat + 16 * b4.toNat) =
      .ok ((fb b0 b1 b2 b3 b4).setWidth 32) := by decide

theorem bit_toNat (n i : Nat) : (n.testBit i).toNat = n / 2^i % 2 := by
  rw [Nat.testBit_eq_decide_div_mod_eq]
  have := Nat.mod_lt (n / 2^i) (show 0 < 2 by omega)
  generalize n / 2^i % 2 = x at *
  match x, this with
  | 0, _ => rfl
  | 1, _ => rfl

theorem top_bits (c : V) : (c.setWidth 32 >>> 25).toNat =
    (c.getLsbD 25).toNat + 2 * (c.getLsbD 26).toNat + 4 * (c.getLsbD 27).toNat +
      8 * (c.getLsbD 28).toNat + 16 * (c.getLsbD 29).toNat := by
  have := c.isLt
  simp only [BitVec.getLsbD, bit_toNat]
  rw [BitVec.toNat_ushiftRight, BitVec.toNat_setWidth, Nat.shiftRight_eq_div_pow]
  omega

theorem shl_width (c : V) : (c.setWidth 32 &&& 0x1ffffff#32) <<< 5 = (c <<< 5).setWidth 32 := by
  apply BitVec.eq_of_toNat_eq
  rw [BitVec.toNat_shiftLeft, BitVec.toNat_and, BitVec.toNat_setWidth, BitVec.toNat_setWidth,
    BitVec.toNat_shiftLeft, show (0x1ffffff#32).toNat = 2^25 - 1 from by decide,
    Nat.and_two_pow_sub_one_eq_mod, Nat.shiftLeft_eq, Nat.shiftLeft_eq]
  have := c.isLt
  omega

theorem polyMod_eq (v : Byte) (c : V) : polyMod v (c.setWidth 32) = .ok ((step c v).setWidth 32) := by
  rw [polyMod, top_bits, rd_poly]
  simp only [Res.ok_bind, Res.pure_eq]
  rw [shl_width, Bech32Spec.step_eq, Bech32Spec.lin_fb, BitVec.setWidth_xor, BitVec.setWidth_xor]
  have : v.setWidth 32 = (v.setWidth 30).setWidth 32 := by
    apply BitVec.eq_of_toNat_eq
    simp only [BitVec.toNat_setWidth]
    have := v.isLt
    omega
  rw [this]

theorem modLoop_eq (f : Byte → Byte) (mem : List Byte) (n : Nat) (c : V) (h : n ≤ mem.length) :
    modLoop f mem n (c.setWidth 32) = .ok ((((mem.take n).map f).foldl step c).setWidth 32) := by
  have := forLoop_eq (fun i mod => do polyMod (f (← rd mem i)) mod)
    (fun j => (((mem.take j).map f).foldl step c).setWidth 32) n 0 (by
      intro j _ hj
      have hj : j < mem.length := by omega
      simp only [rd_ok mem j hj, Res.ok_bind]
      rw [polyMod_eq, List.take_succ_eq_append_getElem hj, List.map_append, List.foldl_append]
      rfl)
  simpa [modLoop] using this

theorem modAll_eq (hrp : List Byte) (m : Nat) (b32 : List Byte) (n : Nat) (hm : m ≤ hrp.length)
    (hn : n ≤ b32.length) :
    modAll hrp m b32 n = .ok ((polymod (hrpExpand (hrp.take m) ++ b32.take n)).setWidth 32) := by
  rw [modAll, show (1#32) = (1#30).setWidth 32 from by decide, modLoop_eq _ _ _ _ hm]
  simp only [Res.ok_bind]
  rw [polyMod_eq]
  simp only [Res.ok_bind]
  rw [modLoop_eq _ _ _ _ hm]
  simp only [Res.ok_bind]
  rw [modLoop_eq _ _ _ _ hn]
  simp only [polymod, hrpExpand, List.foldl_append, List.map_id', List.foldl_cons, List.foldl_nil]

/-- Writing a list of values one by one behind what has been written. -/
theorem wr_loop (body : Nat → List Byte → Res (List Byte)) (W vals out : List Byte)
    (hb : ∀ (i : Nat) (h : i < vals.length) (mem : List Byte), body i mem = wr mem (W.length + i) vals[i])
    (ho : W.length + vals.length ≤ out.length) :
    forLoop body 0 vals.length (over W out) = .ok (over (W ++ vals) out) := by
  have := forLoop_eq body (fun j => over (W ++ vals.take j) out) vals.length 0 (by
    intro j _ hj
    have hj : j < vals.length := by omega
    simp only [hb j hj]
    rw [wr_over _ _ _ _ (by simp; omega) (by simp; omega), List.take_succ_eq_append_getElem hj,
      List.append_assoc])
  simpa using this

theorem zero_loop (c : V) : forLoop (fun _ mod => polyMod 0#8 mod) 0 6 (c.setWidth 32) =
    .ok (((List.replicate 6 0#8).foldl step c).setWidth 32) := by
  have := forLoop_eq (fun _ mod => polyMod 0#8 mod)
    (fun j => ((List.replicate j 0#8).foldl step c).setWidth 32) 6 0 (by
      intro j _ _
      simp only [polyMod_eq, List.replicate_succ', List.foldl_append]
      rfl)
  simpa using this

theorem digit32 (p : V) (k : Nat) : (((p.setWidth 32) >>> k) &&& 31#32).setWidth 8 =
    (p >>> k).setWidth 8 &&& 31#8 := by
  apply BitVec.eq_of_toNat_eq
  rw [Bech32Spec.unpack_toNat, BitVec.toNat_setWidth, BitVec.toNat_and, BitVec.toNat_ushiftRight,
    BitVec.toNat_setWidth, show (31#32).toNat = 2^5 - 1 from by decide, Nat.and_two_pow_sub_one_eq_mod,
    Nat.shiftRight_eq_div_pow, Nat.mod_eq_of_lt (show p.toNat < 2^32 by have := p.isLt; omega)]
  omega

theorem createChecksum_eq (hrp : List Byte) (m : Nat) (b32 : List Byte) (n : Nat) (mem : List Byte)
    (hm : m ≤ hrp.length) (hn : n ≤ b32.length) (h6 : 6 ≤ mem.length) :
    createChecksum hrp m b32 n mem = .ok (over (Bech32Spec.checksum (hrp.take m) (b32.take n)) mem) := by
  rw [createChecksum, modAll_eq _ _ _ _ hm hn]
  simp only [Res.ok_bind]
  rw [zero_loop]
  simp only [Res.ok_bind]
  rw [Bech32Spec.checksum_eq]
  have hp : (List.replicate 6 0#8).foldl step (polymod (hrpExpand (hrp.take m) ++ b32.take n)) =
      polymod (hrpExpand (hrp.take m) ++ b32.take n ++ List.replicate 6 0#8) := by
    simp only [polymod, List.foldl_append]
  rw [hp, show (1#32) = (1#30).setWidth 32 from by decide, ← BitVec.setWidth_xor]
  have := wr_loop (fun i checksum => wr checksum i
    ((((polymod (hrpExpand (hrp.take m) ++ b32.take n ++ List.replicate 6 0#8) ^^^ 1#30).setWidth 32 >>>
      (5 * (5 - i))) &&& 31#32).setWidth 8)) []
    (unpack (polymod (hrpExpand (hrp.take m) ++ b32.take n ++ List.replicate 6 0#8) ^^^ 1#30)) mem (by
      intro i hi mem
      simp only [List.length_nil, Nat.zero_add, unpack, List.getElem_map, List.getElem_range]
      rw [digit32]) (by rw [Bech32Spec.unpack_length]; simpa using h6)
  rw [over_nil, List.nil_append] at this
  exact this

theorem verifyChecksum_eq (hrp : List Byte) (m : Nat) (b32 : List Byte) (n : Nat) (sum : List Byte)
    (hm : m ≤ hrp.length) (hn : n ≤ b32.length) (h6 : 6 ≤ sum.length) :
    verifyChecksum hrp m b32 n sum =
      .ok (decide (polymod (hrpExpand (hrp.take m) ++ b32.take n ++ sum.take 6) = 1#30)) := by
  rw [verifyChecksum, modAll_eq _ _ _ _ hm hn]
  simp only [Res.ok_bind]
  rw [modLoop_eq _ _ _ _ h6]
  simp only [Res.ok_bind, Res.pure_eq, List.map_id']
  have hp : (sum.take 6).foldl step (polymod (hrpExpand (hrp.take m) ++ b32.take n)) =
      polymod (hrpExpand (hrp.take m) ++ b32.take n ++ sum.take 6) := by
    simp only [polymod, List.foldl_append]
  rw [hp]
  congr 1
  generalize polymod (hrpExpand (hrp.take m) ++ b32.take n ++ sum.take 6) = p
  rw [Bool.eq_iff_iff, beq_iff_eq, decide_eq_true_iff]
  constructor
  · intro h
    apply BitVec.eq_of_toNat_eq
    have := congrArg BitVec.toNat h
    rw [BitVec.toNat_setWidth, Nat.mod_eq_of_lt (by have := p.isLt; omega)] at this
    exact this
  · rintro rfl; decide

/-! ### encoding -/

theorem rd_char (v : Byte) (h : v.toNat < 32) : rd BECH32_ENCODE v.toNat = .ok (char v) := by
  have : ∀ v : Byte, v.toNat < 32 → rd BECH32_ENCODE v.toNat = .ok (char v) := by decide +kernel
  exact this v h

theorem checksum_lt (hrp data : List Byte) (v : Byte) (h : v ∈ Bech32Spec.checksum hrp data) : v.toNat < 32 :=
  Bech32Spec.unpack_lt _ v h

theorem checksum_length (hrp data : List Byte) : (Bech32Spec.checksum hrp data).length = 6 := rfl

theorem encode_length (hrp data : List Byte) :
    (Bech32Spec.encode hrp data).length = hrp.length + data.length + 7 := by
  simp [Bech32Spec.encode, checksum_length]; omega

theorem encode_eq (hrp : List Byte) (m : Nat) (b32 : List Byte) (n : Nat) (out : List Byte)
    (hm : m ≤ hrp.length) (hn : n ≤ b32.length) (hlt : ∀ v ∈ b32.take n, v.toNat < 32)
    (ho : m + n + 7 ≤ out.length) :
    encode hrp m b32 n out = .ok (over (Bech32Spec.encode (hrp.take m) (b32.take n)) out) := by
  rw [encode, createChecksum_eq _ _ _ _ _ hm hn (by simp)]
  simp only [Res.ok_bind]
  have hml : (hrp.take m).length = m := by rw [List.length_take]; omega
  have hnl : (b32.take n).length = n := by rw [List.length_take]; omega
  have e0 := memcpy_over [] out hrp 0 m rfl hm (by simp; omega)
  rw [over_nil, List.nil_append] at e0
  rw [e0]
  simp only [Res.ok_bind]
  rw [wr_over _ _ _ _ hml.symm (by omega)]
  simp only [Res.ok_bind]
  have e1 := wr_loop (fun i result => do
    let v ← rd b32 i
    assertC (v.toNat < 32)
    wr result (m + 1 + i) (← rd BECH32_ENCODE v.toNat)) (hrp.take m ++ [chr '1']) ((b32.take n).map char) out
    (by
      intro i hi mem
      have hi' : i < n := by rw [List.length_map, hnl] at hi; exact hi
      have hib : i < b32.length := by omega
      have hv := hlt b32[i] (List.mem_take_iff_getElem.mpr ⟨i, by omega, rfl⟩)
      simp only [rd_ok b32 i hib, Res.ok_bind]
      rw [rd_char _ hv]
      simp only [assertC, decide_eq_true hv, if_true, Res.ok_bind, List.length_append, hml,
        List.length_cons, List.length_nil, Nat.zero_add, List.getElem_map, List.getElem_take])
    (by simp; omega)
  rw [List.length_map, hnl] at e1
  rw [e1]
  simp only [Res.ok_bind]
  have e2 := wr_loop (fun i result => do
    let v ← rd (over (Bech32Spec.checksum (hrp.take m) (b32.take n)) (List.replicate 6 0xAA#8)) i
    wr result (m + 1 + n + i) (← rd BECH32_ENCODE v.toNat))
    (hrp.take m ++ [chr '1'] ++ (b32.take n).map char)
    ((Bech32Spec.checksum (hrp.take m) (b32.take n)).map char) out
    (by
      intro i hi mem
      have ho6 : over (Bech32Spec.checksum (hrp.take m) (b32.take n)) (List.replicate 6 0xAA#8) =
          Bech32Spec.checksum (hrp.take m) (b32.take n) := by
        rw [over, checksum_length, List.drop_eq_nil_of_le (by simp), List.append_nil]
      rw [ho6]
      have hi' : i < (Bech32Spec.checksum (hrp.take m) (b32.take n)).length := by simpa using hi
      have hv := checksum_lt (hrp.take m) (b32.take n) _ (List.getElem_mem hi')
      simp only [rd_ok _ i hi', Res.ok_bind]
      rw [rd_char _ hv]
      simp only [Res.ok_bind, List.length_append, hml, List.length_map, hnl,
        List.length_cons, List.length_nil, Nat.zero_add, List.getElem_map])
    (by simp [checksum_length]; omega)
  rw [List.length_map, checksum_length] at e2
  rw [e2, Bech32Spec.encode, List.map_append]
  rw [show chr '1' = 49#8 from by decide]
  simp only [List.append_assoc]

/-! ### decoding -/

/-- Value of a data character of either case. -/
def value? (c : Byte) : Option Byte :=
  ((List.range 32).map (BitVec.ofNat 8)).find? fun v => char v = lower c

theorem rd_decode : ∀ c : Byte, rd BECH32_DECODE c.toNat =
    .ok (match value? c with | some v => (v.toNat : Int) | none => -1) := by decide +kernel

theorem value?_some : ∀ c : Byte, ∀ v, value? c = some v → v.toNat < 32 ∧ char v = lower c := by
  have : ∀ c : Byte, (match value? c with | some v => decide (v.toNat < 32 ∧ char v = lower c) | none => true) = true := by
    decide +kernel
  intro c v h
  have := this c
  rw [h] at this
  exact of_decide_eq_true this

theorem value?_of : ∀ c v : Byte, v.toNat < 32 → char v = lower c → value? c = some v := by
  have h : ∀ c : Byte, ∀ v : Fin 32, char (BitVec.ofNat 8 v.1) = lower c → value? c = some (BitVec.ofNat 8 v.1) := by
    decide +kernel
  intro c v hv he
  have := h c ⟨v.toNat, hv⟩
  simp only [BitVec.ofNat_toNat, BitVec.setWidth_eq] at this
  exact this he

/-- Out of the printable range / both cases. -/
def illegal (s : List Byte) : Bool :=
  s.any (fun c => decide (c.toNat < 33 ∨ c.toNat > 126)) ||
    (s.any (fun c => decide (isLower c)) && s.any fun c => decide (isUpper c))

theorem illegal_loop (str p l q : List Byte) (hs : str = p ++ l ++ q) (lo up : Bool) :
    forLoopB (illegalBody str) p.length l.length (lo, up) =
    if l.any (fun c => decide (c.toNat < 33 ∨ c.toNat > 126)) then .ok (.stop true)
    else .ok (.next (lo || l.any (fun c => decide (isLower c)), up || l.any fun c => decide (isUpper c))) := by
  induction l generalizing p lo up with
  | nil => simp [forLoopB]
  | cons c l ih =>
    have hr : rd str p.length = .ok c := by
      rw [hs, List.append_assoc]
      exact rd_append_mid p c _ _ rfl
    have ih := ih (p ++ [c]) (by rw [hs]; simp)
    rw [show (p ++ [c]).length = p.length + 1 by simp] at ih
    rw [List.length_cons, forLoopB, illegalBody, hr, Res.ok_bind]
    by_cases h1 : c.toNat ≥ 97 ∧ c.toNat ≤ 122
    · have h2 : ¬ (c.toNat < 33 ∨ c.toNat > 126) := by omega
      have h3 : isLower c := h1
      have h4 : ¬ isUpper c := by unfold isUpper; omega
      rw [if_pos h1]
      simp only [Res.pure_eq, Res.ok_bind]
      rw [ih]
      simp [h2, h3, h4]
    · by_cases h5 : c.toNat ≥ 65 ∧ c.toNat ≤ 90
      · have h2 : ¬ (c.toNat < 33 ∨ c.toNat > 126) := by omega
        have h3 : ¬ isLower c := by unfold isLower; omega
        have h4 : isUpper c := h5
        rw [if_neg h1, if_pos h5]
        simp only [Res.pure_eq, Res.ok_bind]
        rw [ih]
        simp [h2, h3, h4]
      · have h3 : ¬ isLower c := by unfold isLower; omega
        have h4 : ¬ isUpper c := by unfold isUpper; omega
        rw [if_neg h1, if_neg h5]
        by_cases h2 : c.toNat < 33 ∨ c.toNat > 126
        · rw [if_pos h2]
          simp only [Res.pure_eq, Res.ok_bind]
          rw [if_pos]
          simp only [List.any_cons, decide_eq_true h2, Bool.true_or]
        · rw [if_neg h2]
          simp only [Res.pure_eq, Res.ok_bind]
          rw [ih]
          simp [h2, h3, h4]

theorem isIllegal_eq (s post : List Byte) : isIllegal (s ++ post) s.length = .ok (illegal s) := by
  have := illegal_loop (s ++ post) [] s post rfl false false
  rw [List.length_nil] at this
  rw [isIllegal, this]
  unfold illegal
  by_cases h : s.any (fun c => decide (c.toNat < 33 ∨ c.toNat > 126)) = true
  · rw [if_pos h, h]; rfl
  · rw [if_neg h]
    rw [Bool.not_eq_true] at h
    rw [h]
    simp only [Bool.false_or, Res.ok_bind, Res.pure_eq]

theorem strrchrFrom_none (c : Byte) (l post : List Byte) (i : Nat) (last : Option Nat) (hc : c ≠ 0#8)
    (h : ∀ b ∈ l, b ≠ c ∧ b ≠ 0#8) : strrchrFrom c (l ++ 0#8 :: post) i last = .ok last := by
  induction l generalizing i with
  | nil => simp [strrchrFrom, Ne.symm hc]
  | cons b l ih =>
    obtain ⟨h1, h2⟩ := h b (by simp)
    rw [List.cons_append, strrchrFrom, if_neg h1, if_neg h2, ih (i+1) (fun b hb => h b (by simp [hb]))]

theorem strrchrFrom_some (c : Byte) (a b post : List Byte) (i : Nat) (last : Option Nat) (hc : c ≠ 0#8)
    (ha : ∀ x ∈ a, x ≠ 0#8) (hb : ∀ x ∈ b, x ≠ c ∧ x ≠ 0#8) :
    strrchrFrom c (a ++ c :: b ++ 0#8 :: post) i last = .ok (some (i + a.length)) := by
  induction a generalizing i last with
  | nil =>
    rw [List.nil_append, List.cons_append, strrchrFrom, if_pos rfl, strrchrFrom_none c b post _ _ hc hb]
    rfl
  | cons x a ih =>
    have := ha x (by simp)
    rw [List.cons_append, List.cons_append, strrchrFrom]
    have e := ih (i+1)
    by_cases hx : x = c
    · rw [if_pos hx, e _ (fun x hx => ha x (by simp [hx]))]
      simp; omega
    · rw [if_neg hx, if_neg this, e _ (fun x hx => ha x (by simp [hx]))]
      simp; omega

/-- Values of the characters before the first illegal one. -/
def vals (l : List Byte) : List Byte := (l.takeWhile fun c => (value? c).isSome).filterMap value?

theorem vals_cons_some {c v : Byte} (l : List Byte) (h : value? c = some v) : vals (c :: l) = v :: vals l := by
  simp [vals, h]

theorem vals_cons_none {c : Byte} (l : List Byte) (h : value? c = none) : vals (c :: l) = [] := by
  simp [vals, h]

theorem vals_length_le (l : List Byte) : (vals l).length ≤ l.length :=
  Nat.le_trans (List.length_filterMap_le _ _) (List.takeWhile_sublist _).length_le

theorem vals_lt (l : List Byte) (v : Byte) (h : v ∈ vals l) : v.toNat < 32 := by
  obtain ⟨c, _, hc⟩ := List.mem_filterMap.mp h
  exact (value?_some c v hc).1

theorem vals_all (l : List Byte) (h : ∀ c ∈ l, value? c ≠ none) : (vals l).map char = l.map lower ∧
    (vals l).length = l.length := by
  induction l with
  | nil => simp [vals]
  | cons c l ih =>
    obtain ⟨v, hv⟩ := Option.ne_none_iff_exists'.mp (h c (by simp))
    have := ih (fun c hc => h c (by simp [hc]))
    rw [vals_cons_some l hv]
    simp [this, (value?_some c v hv).2]

theorem decode_loop (str p l q W out : List Byte) (o : Nat) (hs : str = p ++ l ++ q)
    (ho : p.length = o + W.length) (hl : W.length + l.length ≤ out.length) :
    forLoopB (decodeBody str o) W.length l.length (over W out) =
    if ∃ c ∈ l, value? c = none then .ok (.stop (over (W ++ vals l) out))
    else .ok (.next (over (W ++ vals l) out)) := by
  induction l generalizing p W with
  | nil => simp [forLoopB, vals]
  | cons c l ih =>
    rw [List.length_cons] at hl
    have hr : rd str (o + W.length) = .ok c := by
      rw [hs, List.append_assoc, ← ho]
      exact rd_append_mid p c _ _ rfl
    rw [List.length_cons, forLoopB, decodeBody, hr, Res.ok_bind, rd_decode, Res.ok_bind]
    cases hv : value? c with
    | none =>
      rw [vals_cons_none l hv]
      simp [hv]
    | some v =>
      have hne : ¬ ((v.toNat : Int) = -1) := by omega
      simp only [hne, if_false]
      rw [wr_over W out _ _ rfl (by omega)]
      simp only [Res.ok_bind, Res.pure_eq]
      have hofi : BitVec.ofInt 8 (v.toNat : Int) = v := by
        rw [BitVec.ofInt_natCast, BitVec.ofNat_toNat, BitVec.setWidth_eq]
      rw [hofi]
      have ih := ih (p ++ [c]) (W ++ [v]) (by rw [hs]; simp) (by simp; omega) (by simp; omega)
      rw [show (W ++ [v]).length = W.length + 1 by simp] at ih
      rw [ih, vals_cons_some l hv]
      have : (∃ x ∈ c :: l, value? x = none) ↔ ∃ x ∈ l, value? x = none := by
        simp [hv]
      simp only [this, List.append_assoc, List.cons_append, List.nil_append]

theorem decodeChars_eq (p l q out : List Byte) (hl : l.length ≤ out.length) :
    decodeChars (p ++ l ++ q) p.length l.length out =
      .ok (over (vals l) out, decide (∀ c ∈ l, value? c ≠ none)) := by
  have := decode_loop (p ++ l ++ q) p l q [] out p.length rfl rfl (by simpa using hl)
  rw [over_nil, List.length_nil] at this
  rw [decodeChars, this]
  by_cases h : ∃ c ∈ l, value? c = none
  · rw [if_pos h]
    have : ¬ ∀ c ∈ l, value? c ≠ none := by
      obtain ⟨c, hc, hv⟩ := h
      exact fun h => h c hc hv
    simp only [Res.ok_bind, Res.pure_eq, List.nil_append, decide_eq_false this]
  · rw [if_neg h]
    have : ∀ c ∈ l, value? c ≠ none := fun c hc hv => h ⟨c, hc, hv⟩
    simp only [Res.ok_bind, Res.pure_eq, List.nil_append, decide_eq_true this]

theorem toLower_eq (c : Byte) : toLower c = lower c := rfl

/-- Behaviour after the separator has been found: `a` before it, data characters `d`, checksum
characters `k`. -/
theorem decodeAt_eq (a d k q hrp b32 : List Byte) (hk : k.length = 6) (ha : a.length ≤ hrp.length)
    (hd : d.length ≤ b32.length) :
    decodeAt (a ++ [49#8] ++ d ++ k ++ q) (a ++ [49#8] ++ d ++ k).length a.length hrp b32 =
      .ok ⟨if ∀ c ∈ d ++ k, value? c ≠ none then
              (if polymod (hrpExpand (a.map lower) ++ vals d ++ vals k) = 1#30 then (d.length : Int) else -5)
            else -4,
          over (a.map lower) hrp, a.length, over (vals d) b32⟩ := by
  rw [decodeAt]
  have e1 := wr_loop (fun i hrp => do wr hrp i (toLower (← rd (a ++ [49#8] ++ d ++ k ++ q) i))) []
    (a.map lower) hrp (by
      intro i hi mem
      have hi' : i < a.length := by simpa using hi
      simp only [List.append_assoc]
      rw [rd_ok _ i (by simp; omega), List.getElem_append_left hi']
      simp only [Res.ok_bind, List.length_nil, Nat.zero_add, List.getElem_map, toLower_eq]) (by simpa using ha)
  rw [over_nil, List.nil_append, List.length_map] at e1
  rw [e1]
  simp only [Res.ok_bind]
  have hn : untilPtr (a.length + 1) ((a ++ [49#8] ++ d ++ k).length - 6) = .ok d.length := by
    rw [untilPtr, if_pos (by simp; omega)]
    congr 1; simp; omega
  rw [hn]
  simp only [Res.ok_bind]
  have e2 := decodeChars_eq (a ++ [49#8]) d (k ++ q) b32 hd
  rw [show (a ++ [49#8]).length = a.length + 1 from by simp,
    show a ++ [49#8] ++ d ++ (k ++ q) = a ++ [49#8] ++ d ++ k ++ q by simp] at e2
  rw [e2]
  simp only [Res.ok_bind]
  by_cases hgd : ∀ c ∈ d, value? c ≠ none
  · have e3 := decodeChars_eq (a ++ [49#8] ++ d) k q (List.replicate 6 0xAA#8) (by simp; omega)
    rw [decide_eq_true hgd]
    rw [show (a ++ [49#8] ++ d ++ k).length - 6 = (a ++ [49#8] ++ d).length by simp; omega]
    rw [hk] at e3
    rw [e3]
    simp only [Bool.not_true, Bool.false_eq_true, if_false, Res.ok_bind]
    by_cases hgk : ∀ c ∈ k, value? c ≠ none
    · have hall : ∀ c ∈ d ++ k, value? c ≠ none := by
        intro c hc
        rcases List.mem_append.mp hc with h | h
        · exact hgd c h
        · exact hgk c h
      rw [decide_eq_true hgk, if_pos hall]
      simp only [Bool.not_true, Bool.false_eq_true, if_false]
      have hvl := (vals_all d hgd).2
      have hkl := (vals_all k hgk).2
      have t1 : (over (a.map lower) hrp).take a.length = a.map lower := by
        rw [over, List.take_left' (by simp)]
      have t2 : (over (vals d) b32).take d.length = vals d := by
        rw [over, List.take_left' hvl]
      have t3 : (over (vals k) (List.replicate 6 0xAA#8)).take 6 = vals k := by
        rw [over, List.take_left' (by omega)]
      rw [verifyChecksum_eq _ _ _ _ _ (by rw [over_length _ _ (by simpa using ha)]; exact ha)
        (by rw [over_length _ _ (by omega)]; exact hd)
        (by rw [over_length _ _ (by simp; omega)]; simp), t1, t2, t3]
      simp only [Res.ok_bind, Res.pure_eq]
      congr 2
      simp only [decide_eq_true_eq]
    · have hall : ¬ ∀ c ∈ d ++ k, value? c ≠ none := fun h => hgk fun c hc => h c (by simp [hc])
      rw [decide_eq_false hgk, if_neg hall]
      rfl
  · have hall : ¬ ∀ c ∈ d ++ k, value? c ≠ none := fun h => hgd fun c hc => h c (by simp [hc])
    rw [decide_eq_false hgd, if_neg hall]
    rfl

end Bech32
