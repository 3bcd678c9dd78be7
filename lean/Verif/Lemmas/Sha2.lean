import Verif.Model.Sha2
import Verif.Spec.Sha2
import Verif.Lemmas.HashCommon

namespace Sha2
open Sha2Spec WordSpec HashCommon Endian

variable {w : Nat}

/-! ### Message schedule of the specification -/

theorem extend_length (v : Variant w) (ws : List (BitVec w)) : (extend v ws).length = ws.length + 1 := by
  simp [extend]

theorem extendN_length (v : Variant w) (n : Nat) (ws : List (BitVec w)) :
    (extendN v n ws).length = ws.length + n := by
  induction n generalizing ws with
  | zero => rfl
  | succ n ih => rw [extendN, ih, extend_length]; omega

theorem extendN_old (v : Variant w) (n : Nat) (ws : List (BitVec w)) (i : Nat) (h : i < ws.length) :
    (extendN v n ws).getD i 0#w = ws.getD i 0#w := by
  induction n generalizing ws with
  | zero => rfl
  | succ n ih =>
    rw [extendN, ih _ (by rw [extend_length]; omega)]
    simp [extend, List.getD_eq_getElem?_getD, List.getElem?_append_left h]

theorem extendN_new (v : Variant w) (n : Nat) (ws : List (BitVec w)) (t : Nat) (h : ws.length ≤ t)
    (ht : t < ws.length + n) (h16 : 16 ≤ ws.length) :
    let S := extendN v n ws
    S.getD t 0#w = v.s1 (S.getD (t-2) 0#w) + S.getD (t-7) 0#w + v.s0 (S.getD (t-15) 0#w) +
      S.getD (t-16) 0#w := by
  induction n generalizing ws with
  | zero => omega
  | succ n ih =>
    intro S
    by_cases he : t = ws.length
    · subst he
      have hold : ∀ i, i < ws.length → S.getD i 0#w = ws.getD i 0#w :=
        fun i hi => extendN_old v (n+1) ws i hi
      rw [hold (ws.length - 2) (by omega), hold (ws.length - 7) (by omega),
        hold (ws.length - 15) (by omega), hold (ws.length - 16) (by omega)]
      show (extendN v n (extend v ws)).getD _ _ = _
      rw [extendN_old _ _ _ _ (by rw [extend_length]; omega)]
      simp [extend, List.getD_eq_getElem?_getD]
    · exact ih (extend v ws) (by rw [extend_length]; omega) (by rw [extend_length]; omega)
        (by rw [extend_length]; omega)

/-! ### The rounds -/

/-- Working variables as a list. -/
def varList (s : Vars w) : List (BitVec w) := [s.a, s.b, s.c, s.d, s.e, s.f, s.g, s.h]

/-- The registers before round `i`: register `p` plays the role of variable `(p + i) mod 8`. -/
def regsAt (i : Nat) (s : Vars w) : List (BitVec w) :=
  (List.range 8).map fun p => (varList s).getD ((p + i) % 8) 0#w

/-- Macro arguments of round `i`: variable `j` is in register `(j - i) mod 8`. -/
def roleRegs (i : Nat) : List Nat := (List.range 8).map fun j => (j + 8 - i % 8) % 8

/-- The macros compute what the standard says. -/
structure Agree (m : Macros w) (v : Variant w) : Prop where
  t1 : ∀ h e f g k x, m.t1 h e f g k x = h + v.S1 e + Ch e f g + k + x
  t2 : ∀ a b c, m.t2 a b c = v.S0 a + Maj a b c
  s0 : ∀ x, m.s0 x = v.s0 x
  s1 : ∀ x, m.s1 x = v.s1 x

theorem roleRegs_mod (i : Nat) : roleRegs i = roleRegs (i % 8) := by simp [roleRegs]
theorem regsAt_mod (i : Nat) (s : Vars w) : regsAt i s = regsAt (i % 8) s := by simp [regsAt]

theorem execRound_eq {m : Macros w} {v : Variant w} (ag : Agree m v) (be : Nat → Res (BitVec w))
    (i k : Nat) (op : WOp) (s : Vars w) (W W' : List (Option (BitVec w))) (x : BitVec w)
    (hop : evalOp m be W op = .ok (x, W')) :
    execRound m be ⟨roleRegs i, k, op⟩ (regsAt i s) W =
      .ok (regsAt (i+1) (Sha2Spec.round v s (BitVec.ofNat w k) x), W') := by
  rw [roleRegs_mod, regsAt_mod i, regsAt_mod (i+1), show (i+1) % 8 = (i % 8 + 1) % 8 by omega]
  have hi : i % 8 < 8 := Nat.mod_lt _ (by omega)
  generalize i % 8 = r at hi
  simp only [execRound, hop, Res.ok_bind, Res.pure_eq, ag.t1, ag.t2]
  match r, hi with
  | 0, _ | 1, _ | 2, _ | 3, _ | 4, _ | 5, _ | 6, _ | 7, _ => rfl

/-- Round `i` of the straightforward program with `N` rounds and `wb` bytes per word. -/
def genRound (K : List Nat) (N wb i : Nat) : Round :=
  ⟨roleRegs i, K.getD i 0,
    if i < 16 then .assign i [.be (wb * i)]
    else if i + 2 < N then .plus (i % 16) [.s1 ((i-2) % 16), .w ((i-7) % 16), .s0 ((i-15) % 16)]
    else .use [.w (i % 16), .s1 ((i-2) % 16), .w ((i-7) % 16), .s0 ((i-15) % 16)]⟩

/-- Before round `i` the sixteen locals hold the last sixteen schedule words. -/
def WInv (S : List (BitVec w)) (N i : Nat) (W : List (Option (BitVec w))) : Prop :=
  W.length = 16 ∧ ∀ t, t < i → i ≤ t + 16 → t + 2 < N → W.getD (t % 16) none = some (S.getD t 0#w)

theorem readW_eq {W : List (Option (BitVec w))} {i : Nat} {x : BitVec w}
    (h : W.getD i none = some x) : readW W i = .ok x := by
  rw [readW, h]

theorem WInv_set {S : List (BitVec w)} {N i : Nat} {W : List (Option (BitVec w))}
    (h : WInv S N i W) : WInv S N (i+1) (W.set (i % 16) (some (S.getD i 0#w))) := by
  refine ⟨by rw [List.length_set]; exact h.1, fun t h1 h2 h3 => ?_⟩
  by_cases e : t = i
  · subst e
    have : t % 16 < W.length := by rw [h.1]; omega
    simp [List.getD_eq_getElem?_getD, List.getElem?_set_self this]
  · have hne : i % 16 ≠ t % 16 := by omega
    have := h.2 t (by omega) (by omega) h3
    rw [List.getD_eq_getElem?_getD] at this ⊢
    rw [List.getElem?_set_ne hne]
    exact this

theorem WInv_end {S : List (BitVec w)} {N i : Nat} {W : List (Option (BitVec w))}
    (h : WInv S N i W) (hi : N ≤ i + 2) : WInv S N (i+1) W :=
  ⟨h.1, fun t h1 h2 h3 => h.2 t (by omega) (by omega) h3⟩

/-- One step of the straightforward program: the value is the schedule word. -/
theorem genOp_eq {m : Macros w} {v : Variant w} (ag : Agree m v) (be : Nat → Res (BitVec w))
    (S : List (BitVec w)) (N wb i : Nat) (W : List (Option (BitVec w)))
    (hN : i < N)
    (hbe : ∀ j, j < 16 → i ≤ j → be (wb * j) = .ok (S.getD j 0#w))
    (hS : ∀ t, 16 ≤ t → t < N → S.getD t 0#w = v.s1 (S.getD (t-2) 0#w) + S.getD (t-7) 0#w +
      v.s0 (S.getD (t-15) 0#w) + S.getD (t-16) 0#w)
    (hW : WInv S N i W) (K : List Nat) :
    ∃ W', evalOp m be W (genRound K N wb i).op = .ok (S.getD i 0#w, W') ∧ WInv S N (i+1) W' := by
  simp only [genRound]
  by_cases h16 : i < 16
  · rw [if_pos h16]
    refine ⟨W.set i (some (S.getD i 0#w)), ?_, ?_⟩
    · simp only [evalOp, evalSum, evalTerm, hbe i h16 (Nat.le_refl _), Res.ok_bind, Res.pure_eq,
        BitVec.zero_add]
    · have := WInv_set hW
      rwa [Nat.mod_eq_of_lt h16] at this
  · have r2 := readW_eq (hW.2 (i-2) (by omega) (by omega) (by omega))
    have r7 := readW_eq (hW.2 (i-7) (by omega) (by omega) (by omega))
    have r15 := readW_eq (hW.2 (i-15) (by omega) (by omega) (by omega))
    have r16 := readW_eq (hW.2 (i-16) (by omega) (by omega) (by omega))
    rw [show (i - 16) % 16 = i % 16 by omega] at r16
    have e := hS i (by omega) hN
    rw [if_neg h16]
    by_cases h2 : i + 2 < N
    · rw [if_pos h2]
      refine ⟨_, ?_, WInv_set hW⟩
      simp only [evalOp, evalSum, evalTerm, r2, r7, r15, r16, Res.ok_bind, Res.pure_eq,
        BitVec.zero_add, ag.s0, ag.s1]
      rw [BitVec.add_comm (S.getD (i-16) 0#w), ← e]
    · rw [if_neg h2]
      refine ⟨W, ?_, WInv_end hW (by omega)⟩
      simp only [evalOp, evalSum, evalTerm, r2, r7, r15, r16, Res.ok_bind, Res.pure_eq,
        BitVec.zero_add, ag.s0, ag.s1]
      rw [e]
      congr 2
      ac_rfl

/-- The straightforward program from round `i` on. -/
theorem exec_gen {m : Macros w} {v : Variant w} (ag : Agree m v) (be : Nat → Res (BitVec w))
    (S : List (BitVec w)) (K : List Nat) (N wb : Nat)
    (hS : ∀ t, 16 ≤ t → t < N → S.getD t 0#w = v.s1 (S.getD (t-2) 0#w) + S.getD (t-7) 0#w +
      v.s0 (S.getD (t-15) 0#w) + S.getD (t-16) 0#w)
    (k i : Nat) (hk : i + k = N)
    (hbe : ∀ j, j < 16 → i ≤ j → be (wb * j) = .ok (S.getD j 0#w))
    (s : Vars w) (W : List (Option (BitVec w))) (hW : WInv S N i W) :
    ∃ W', exec m be ((List.range' i k).map (genRound K N wb)) (regsAt i s) W =
      .ok (regsAt N (Sha2Spec.rounds v s ((List.range' i k).map fun t =>
        (BitVec.ofNat w (K.getD t 0), S.getD t 0#w))), W') ∧ W'.length = 16 := by
  induction k generalizing i s W with
  | zero => exact ⟨W, by simp [exec, Sha2Spec.rounds, ← hk], hW.1⟩
  | succ k ih =>
    obtain ⟨W1, h1, hW1⟩ := genOp_eq ag be S N wb i W (by omega) hbe hS hW K
    simp only [List.range'_succ, List.map_cons, exec, Sha2Spec.rounds]
    have hr := execRound_eq ag be i (K.getD i 0) (genRound K N wb i).op s W W1 _ h1
    have : genRound K N wb i = ⟨roleRegs i, K.getD i 0, (genRound K N wb i).op⟩ := rfl
    rw [this, hr]
    exact ih (i+1) (by omega) (fun j h1 h2 => hbe j h1 (by omega)) _ W1 hW1

theorem exec_append (m : Macros w) (be : Nat → Res (BitVec w)) (p q : List Round)
    (R : List (BitVec w)) (W : List (Option (BitVec w))) :
    exec m be (p ++ q) R W = (exec m be p R W >>= fun (R, W) => exec m be q R W) := by
  induction p generalizing R W with
  | nil => rfl
  | cons r p ih =>
    simp only [List.cons_append, exec]
    cases execRound m be r R W with
    | ok x => exact ih _ _
    | ub => rfl
    | abort => rfl

/-! ### Bit-level identities between the macros and the standard -/

theorem rol_rotr32 (x : U32) (a b : Nat) (h : a + b = 32) : rol x a = rotr b x := by
  have ha : a = 32 - b := by omega
  have hb : 32 - a = b := by omega
  rw [rol, rotr, hb, ha, BitVec.or_comm]

theorem rol_rotr64 (x : U64) (a b : Nat) (h : a + b = 64) : rol x a = rotr b x := by
  have ha : a = 64 - b := by omega
  have hb : 64 - a = b := by omega
  rw [rol, rotr, hb, ha, BitVec.or_comm]

theorem ch_eq (x y z : BitVec w) : ch x y z = Ch x y z := by
  apply BitVec.eq_of_getLsbD_eq
  intro i hi
  simp only [ch, Ch, BitVec.getLsbD_xor, BitVec.getLsbD_and, BitVec.getLsbD_not, hi]
  cases x.getLsbD i <;> cases y.getLsbD i <;> cases z.getLsbD i <;> rfl

theorem maj_eq (x y z : BitVec w) : maj x y z = Maj x y z := by
  apply BitVec.eq_of_getLsbD_eq
  intro i hi
  simp only [maj, Maj, BitVec.getLsbD_xor, BitVec.getLsbD_and, BitVec.getLsbD_or]
  cases x.getLsbD i <;> cases y.getLsbD i <;> cases z.getLsbD i <;> rfl

theorem agree32 : Agree macros32 Sha2Spec.sha256 where
  t1 h e f g k x := by
    simp only [macros32, Sha2Spec.sha256, Sigma132, ch_eq, rol_rotr32 e 26 6 rfl,
      rol_rotr32 e 21 11 rfl, rol_rotr32 e 7 25 rfl, BitVec.add_assoc]
  t2 a b c := by
    simp only [macros32, Sha2Spec.sha256, Sigma032, maj_eq, rol_rotr32 a 30 2 rfl,
      rol_rotr32 a 19 13 rfl, rol_rotr32 a 10 22 rfl]
  s0 x := by
    simp only [macros32, Sha2Spec.sha256, sigma032, rol_rotr32 x 25 7 rfl, rol_rotr32 x 14 18 rfl]
  s1 x := by
    simp only [macros32, Sha2Spec.sha256, sigma132, rol_rotr32 x 15 17 rfl, rol_rotr32 x 13 19 rfl]

theorem agree64 : Agree macros64 Sha2Spec.sha512 where
  t1 h e f g k x := by
    simp only [macros64, Sha2Spec.sha512, Sigma164, ch_eq, rol_rotr64 e 50 14 rfl,
      rol_rotr64 e 46 18 rfl, rol_rotr64 e 23 41 rfl]
  t2 a b c := by
    simp only [macros64, Sha2Spec.sha512, Sigma064, maj_eq, rol_rotr64 a 36 28 rfl,
      rol_rotr64 a 30 34 rfl, rol_rotr64 a 25 39 rfl]
  s0 x := by
    simp only [macros64, Sha2Spec.sha512, sigma064, rol_rotr64 x 63 1 rfl, rol_rotr64 x 56 8 rfl]
  s1 x := by
    simp only [macros64, Sha2Spec.sha512, sigma164, rol_rotr64 x 45 19 rfl, rol_rotr64 x 3 61 rfl]

/-! ### The unrolled programs are the straightforward ones -/

/-- Round constants as numbers. -/
def K256 : List Nat := Sha2Spec.sha256.K.map BitVec.toNat
def K512 : List Nat := Sha2Spec.sha512.K.map BitVec.toNat

theorem sha256Prog_eq : sha256Prog = (List.range' 0 64).map (genRound K256 64 4) := by
  decide +kernel

theorem sha512Prog_eq : sha512Prog = (List.range' 0 80).map (genRound K512 80 8) := by
  decide +kernel

theorem iv256_eq : iv256 = Sha2Spec.sha256.H0 := by decide +kernel
theorem iv512_eq : iv512 = Sha2Spec.sha512.H0 := by decide +kernel
theorem K256_length : Sha2Spec.sha256.K.length = 64 := by decide +kernel
theorem K512_length : Sha2Spec.sha512.K.length = 80 := by decide +kernel

theorem zip_eq_map (K S : List (BitVec w)) (N : Nat) (hK : K.length = N) (hS : S.length = N) :
    K.zip S = (List.range' 0 N).map fun t =>
      (BitVec.ofNat w ((K.map BitVec.toNat).getD t 0), S.getD t 0#w) := by
  apply List.ext_getElem
  · simp [hK, hS]
  · intro i h1 h2
    rw [List.length_zip] at h1
    have hk : i < K.length := by omega
    have hs : i < S.length := by omega
    simp [List.getD_eq_getElem?_getD, hk, hs]

theorem WInv_zero (S : List (BitVec w)) (N : Nat) : WInv S N 0 noW :=
  ⟨by simp [noW], fun t h => absurd h (by omega)⟩

theorem words_length (v : Variant w) (c : List Byte) :
    (words v c).length = c.length / v.wordBytes := by simp [words, pieces]

theorem words_getD (v : Variant w) (c : List Byte) (i : Nat) (h : i < c.length / v.wordBytes) :
    (words v c).getD i 0#w = BitVec.ofNat w (beNat ((c.drop (v.wordBytes * i)).take v.wordBytes)) := by
  simp [words, pieces, List.getD_eq_getElem?_getD, h]

/-- Both transforms at once. -/
theorem transform_gen {m : Macros w} {v : Variant w} (ag : Agree m v) (be : Nat → Res (BitVec w))
    (prog : List Round) (M : List (BitVec w)) (N wb : Nat) (hN : N = v.rounds) (hN16 : 16 ≤ N)
    (hN8 : N % 8 = 0)
    (hK : v.K.length = N)
    (hprog : prog = (List.range' 0 N).map (genRound (v.K.map BitVec.toNat) N wb))
    (hM : M.length = 16) (hbe : ∀ j, j < 16 → be (wb * j) = .ok (M.getD j 0#w))
    (s : List (BitVec w)) (hs : s.length = 8) :
    ∃ R W, exec m be prog s noW = .ok (R, W) ∧ W.length = 16 ∧
      List.zipWith (· + ·) s R = compress v s M ∧
      List.zipWith (· + ·) R s = compress v s M := by
  have hSl : (schedule v M).length = N := by rw [schedule, extendN_length, hM, hN]; omega
  obtain ⟨W', hex, hW'⟩ := exec_gen ag be (schedule v M) (v.K.map BitVec.toNat) N wb
    (fun t h1 h2 => extendN_new v (v.rounds - 16) M t (by omega) (by omega) (by omega))
    N 0 (by omega)
    (fun j h1 _ => by rw [hbe j h1, schedule, extendN_old _ _ _ _ (by omega)])
    ⟨s.getD 0 0#w, s.getD 1 0#w, s.getD 2 0#w, s.getD 3 0#w, s.getD 4 0#w, s.getD 5 0#w,
      s.getD 6 0#w, s.getD 7 0#w⟩ noW (WInv_zero _ _)
  rw [← hprog, ← zip_eq_map v.K _ N hK hSl] at hex
  match s, hs with
  | [s0, s1, s2, s3, s4, s5, s6, s7], _ =>
    refine ⟨_, W', hex, hW', ?_, ?_⟩
    · rw [regsAt_mod, hN8]
      simp only [compress, List.getD_cons_zero, List.getD_cons_succ]
      generalize Sha2Spec.rounds v _ _ = r
      simp [regsAt, varList, List.range_succ, BitVec.add_comm]
    · rw [regsAt_mod, hN8]
      simp only [compress, List.getD_cons_zero, List.getD_cons_succ]
      generalize Sha2Spec.rounds v _ _ = r
      simp [regsAt, varList, List.range_succ]

theorem sha256Transform_eq (host : Host) (s : List U32) (chunk : List Byte) (hs : s.length = 8)
    (hc : 64 ≤ chunk.length) :
    sha256Transform host s chunk =
      .ok (compress Sha2Spec.sha256 s (words Sha2Spec.sha256 (chunk.take 64))) := by
  have hl : (chunk.take 64).length = 64 := by rw [List.length_take]; omega
  obtain ⟨R, W, h1, -, h2, -⟩ := transform_gen agree32 (readBig32 host chunk) sha256Prog
    (words Sha2Spec.sha256 (chunk.take 64)) 64 4 rfl (by omega) rfl K256_length sha256Prog_eq
    (by rw [words_length, hl]; rfl)
    (fun j hj => by
      rw [words_getD _ _ _ (by rw [hl]; exact hj), readBig32_eq host chunk (4*j) (by omega)]
      show _ = Res.ok (BitVec.ofNat 32 (beNat (((chunk.take 64).drop (4*j)).take 4)))
      rw [List.drop_take, List.take_take, Nat.min_eq_left (by omega)]) s hs
  rw [sha256Transform, h1]
  simp only [Res.ok_bind, Res.pure_eq, h2]

theorem sha512Transform_eq (host : Host) (s : List U64) (chunk : List Byte) (hs : s.length = 8)
    (hc : 128 ≤ chunk.length) :
    sha512Transform host s chunk =
      .ok (compress Sha2Spec.sha512 s (words Sha2Spec.sha512 (chunk.take 128))) := by
  have hl : (chunk.take 128).length = 128 := by rw [List.length_take]; omega
  obtain ⟨R, W, h1, -, h2, -⟩ := transform_gen agree64 (readBig64 host chunk) sha512Prog
    (words Sha2Spec.sha512 (chunk.take 128)) 80 8 rfl (by omega) rfl K512_length sha512Prog_eq
    (by rw [words_length, hl]; rfl)
    (fun j hj => by
      rw [words_getD _ _ _ (by rw [hl]; exact hj), readBig64_eq host chunk (8*j) (by omega)]
      show _ = Res.ok (BitVec.ofNat 64 (beNat (((chunk.take 128).drop (8*j)).take 8)))
      rw [List.drop_take, List.take_take, Nat.min_eq_left (by omega)]) s hs
  rw [sha512Transform, h1]
  simp only [Res.ok_bind, Res.pure_eq, h2]

end Sha2
