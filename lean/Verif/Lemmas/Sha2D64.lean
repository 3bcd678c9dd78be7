import Verif.Lemmas.Sha2Hash

/-! `_hash256_d64_transform` computes double SHA-256 of a 64-byte block. -/
set_option linter.unusedSimpArgs false

namespace Sha2
open Sha2Spec WordSpec HashCommon Endian

theorem d64Prog1_eq : d64Prog1 = sha256Prog := by decide +kernel

/-- Rounds whose message words are known: the constants are folded. -/
theorem round_fold {w : Nat} (v : Variant w) (s : Vars w) (k x K W : BitVec w) (h : k + x = K + W) :
    Sha2Spec.round v s k x = Sha2Spec.round v s K W := by
  simp only [Sha2Spec.round, BitVec.add_assoc, h]

/-- A program whose round `t` works on `Ws t` and effectively adds `K_t + S_t`. -/
theorem exec_chain {w : Nat} {m : Macros w} {v : Variant w} (ag : Agree m v)
    (be : Nat → Res (BitVec w)) (prog : Nat → Round) (K S : Nat → BitVec w)
    (Ws : Nat → List (Option (BitVec w))) (k i : Nat)
    (hr : ∀ t, i ≤ t → t < i + k → (prog t).regs = roleRegs t)
    (hop : ∀ t, i ≤ t → t < i + k → ∃ x, evalOp m be (Ws t) (prog t).op = .ok (x, Ws (t+1)) ∧
      BitVec.ofNat w (prog t).k + x = K t + S t)
    (s : Vars w) :
    exec m be ((List.range' i k).map prog) (regsAt i s) (Ws i) =
      .ok (regsAt (i+k) (Sha2Spec.rounds v s ((List.range' i k).map fun t => (K t, S t))), Ws (i+k)) := by
  induction k generalizing i s with
  | zero => rfl
  | succ k ih =>
    obtain ⟨x, h1, h2⟩ := hop i (Nat.le_refl _) (by omega)
    have e : prog i = ⟨roleRegs i, (prog i).k, (prog i).op⟩ := by
      rw [← hr i (Nat.le_refl _) (by omega)]
    simp only [List.range'_succ, List.map_cons, exec, Sha2Spec.rounds]
    rw [e, execRound_eq ag be i _ _ s _ _ x h1, round_fold v s _ x _ _ h2]
    simp only [Res.ok_bind]
    rw [ih (i+1) (fun t h1 h2 => hr t (by omega) (by omega))
      (fun t h1 h2 => hop t (by omega) (by omega)), show i + 1 + k = i + (k + 1) by omega]

theorem rounds_append {w : Nat} (v : Variant w) (s : Vars w) (p q : List (BitVec w × BitVec w)) :
    Sha2Spec.rounds v s (p ++ q) = Sha2Spec.rounds v (Sha2Spec.rounds v s p) q := by
  induction p generalizing s with
  | nil => rfl
  | cons x p ih => exact ih _

/-! ### Transform 2 -/

def defRound : Round := ⟨[], 0, .none⟩

/-- The padding block of a 64-byte message. -/
def padWords64 : List U32 :=
  [0x80000000, 0, 0, 0, 0, 0, 0, 0, 0, 0, 0, 0, 0, 0, 0, 512]

theorem d64Prog2_eq : d64Prog2 = (List.range' 0 64).map fun t => d64Prog2.getD t defRound := by
  decide +kernel

theorem d64Prog2_regs : ∀ t : Fin 64, (d64Prog2.getD t.1 defRound).regs = roleRegs t.1 := by
  decide +kernel

theorem d64Prog2_op : ∀ t : Fin 64, (d64Prog2.getD t.1 defRound).op = .none := by
  decide +kernel

theorem d64Prog2_k : ∀ t : Fin 64, BitVec.ofNat 32 (d64Prog2.getD t.1 defRound).k =
    BitVec.ofNat 32 (K256.getD t.1 0) + (schedule Sha2Spec.sha256 padWords64).getD t.1 0#32 := by
  decide +kernel

/-- Working variables from a list of eight words. -/
def varsOf (s : List U32) : Vars 32 :=
  ⟨s.getD 0 0#32, s.getD 1 0#32, s.getD 2 0#32, s.getD 3 0#32, s.getD 4 0#32, s.getD 5 0#32,
    s.getD 6 0#32, s.getD 7 0#32⟩

theorem regsAt_varsOf (s : List U32) (h : s.length = 8) : regsAt 0 (varsOf s) = s := by
  match s, h with
  | [s0, s1, s2, s3, s4, s5, s6, s7], _ => rfl

theorem regsAt_64 (r : Vars 32) : regsAt 64 r = varList r := by
  rw [regsAt_mod]; rfl

theorem compress_eq (s M : List U32) (hs : s.length = 8) (hM : M.length = 16) :
    compress Sha2Spec.sha256 s M = List.zipWith (· + ·) s (varList
      (Sha2Spec.rounds Sha2Spec.sha256 (varsOf s) ((List.range' 0 64).map fun t =>
        (BitVec.ofNat 32 (K256.getD t 0), (schedule Sha2Spec.sha256 M).getD t 0#32)))) := by
  have hSl : (schedule Sha2Spec.sha256 M).length = 64 := by
    rw [schedule, extendN_length, hM]; rfl
  have e := zip_eq_map Sha2Spec.sha256.K _ 64 K256_length hSl
  rw [compress, e]
  match s, hs with
  | [s0, s1, s2, s3, s4, s5, s6, s7], _ =>
    simp only [List.getD_cons_zero, List.getD_cons_succ, varsOf]
    show _ = List.zipWith _ _ (varList (Sha2Spec.rounds Sha2Spec.sha256 _
      ((List.range' 0 64).map fun t => (BitVec.ofNat 32 ((Sha2Spec.sha256.K.map BitVec.toNat).getD t 0), _))))
    generalize Sha2Spec.rounds Sha2Spec.sha256 _ _ = r
    simp [varList, BitVec.add_comm]

theorem transform2_eq (be : Nat → Res U32) (t : List U32) (ht : t.length = 8)
    (W : List (Option U32)) :
    ∃ R, exec macros32 be d64Prog2 t W = .ok (R, W) ∧
      List.zipWith (· + ·) t R = compress Sha2Spec.sha256 t padWords64 := by
  have h := exec_chain agree32 be (fun t => d64Prog2.getD t defRound)
    (fun t => BitVec.ofNat 32 (K256.getD t 0))
    (fun t => (schedule Sha2Spec.sha256 padWords64).getD t 0#32) (fun _ => W) 64 0
    (fun t _ h => d64Prog2_regs ⟨t, by omega⟩)
    (fun t _ h => ⟨0#32, by
      simp only [d64Prog2_op ⟨t, by omega⟩, evalOp],
      by rw [BitVec.add_zero]; exact d64Prog2_k ⟨t, by omega⟩⟩) (varsOf t)
  rw [← d64Prog2_eq, regsAt_varsOf t ht, Nat.zero_add, regsAt_64] at h
  exact ⟨_, h, (compress_eq t padWords64 ht rfl).symm⟩

/-! ### Transform 3 -/

theorem d64Prog3_eq : d64Prog3 = ((List.range' 0 32).map fun t => d64Prog3.getD t defRound) ++
    (List.range' 32 32).map (genRound K256 64 4) := by decide +kernel

theorem d64Prog3_regs : ∀ t : Fin 32, (d64Prog3.getD t.1 defRound).regs = roleRegs t.1 := by
  decide +kernel

theorem d64k3_eq (t : Nat) (h : t < 32) (h2 : t < 8 ∨ 16 ≤ t) :
    BitVec.ofNat 32 (d64Prog3.getD t defRound).k = BitVec.ofNat 32 (K256.getD t 0) := by
  have : ∀ t : Fin 32, t.1 < 8 ∨ 16 ≤ t.1 →
      BitVec.ofNat 32 (d64Prog3.getD t.1 defRound).k = BitVec.ofNat 32 (K256.getD t.1 0) := by
    decide +kernel
  exact this ⟨t, h⟩ h2

/-- Contents of `w0 … w15` before round `t` of transform 3. -/
def d64W (S : Nat → U32) (W0 : List (Option U32)) (t : Nat) : List (Option U32) :=
  (List.range 16).map fun j =>
    if 16 + j < t then some (S (16 + j)) else if j < 8 then some (S j) else W0.getD j none

theorem d64z0 : sigma032 0#32 = 0#32 := by decide +kernel
theorem d64z1 : sigma132 0#32 = 0#32 := by decide +kernel
theorem d64c0 : sigma032 0x80000000#32 = 0x11002000#32 := by decide +kernel
theorem d64c1 : sigma132 0x100#32 = 0xa00000#32 := by decide +kernel
theorem d64c2 : sigma032 0x100#32 = 0x400022#32 := by decide +kernel

/-- The constant half of the second message block. -/
def padWord32 (t : Nat) : U32 := if t = 8 then 0x80000000#32 else if t = 15 then 0x100#32 else 0#32

theorem d64_step (be : Nat → Res U32) (S : Nat → U32) (W0 : List (Option U32))
    (hc : ∀ t, 8 ≤ t → t < 16 → S t = padWord32 t)
    (hrec : ∀ t, 16 ≤ t → t < 64 → S t = sigma132 (S (t-2)) + S (t-7) + sigma032 (S (t-15)) + S (t-16))
    (t : Nat) (ht : t < 32) :
    ∃ x, evalOp macros32 be (d64W S W0 t) (d64Prog3.getD t defRound).op = .ok (x, d64W S W0 (t+1)) ∧
      BitVec.ofNat 32 (d64Prog3.getD t defRound).k + x = BitVec.ofNat 32 (K256.getD t 0) + S t := by
  have h8 : S 8 = 0x80000000#32 := hc 8 (by omega) (by omega)
  have h9 : S 9 = 0#32 := hc 9 (by omega) (by omega)
  have h10 : S 10 = 0#32 := hc 10 (by omega) (by omega)
  have h11 : S 11 = 0#32 := hc 11 (by omega) (by omega)
  have h12 : S 12 = 0#32 := hc 12 (by omega) (by omega)
  have h13 : S 13 = 0#32 := hc 13 (by omega) (by omega)
  have h14 : S 14 = 0#32 := hc 14 (by omega) (by omega)
  have h15 : S 15 = 0x100#32 := hc 15 (by omega) (by omega)
  match t, ht with
  | 0, _ => exact ⟨S 0, (rfl : _ = Res.ok (0#32 + S 0, _)).trans (by rw [BitVec.zero_add]; rfl), by rw [d64k3_eq 0 (by omega) (by omega)]⟩
  | 1, _ => exact ⟨S 1, (rfl : _ = Res.ok (0#32 + S 1, _)).trans (by rw [BitVec.zero_add]; rfl), by rw [d64k3_eq 1 (by omega) (by omega)]⟩
  | 2, _ => exact ⟨S 2, (rfl : _ = Res.ok (0#32 + S 2, _)).trans (by rw [BitVec.zero_add]; rfl), by rw [d64k3_eq 2 (by omega) (by omega)]⟩
  | 3, _ => exact ⟨S 3, (rfl : _ = Res.ok (0#32 + S 3, _)).trans (by rw [BitVec.zero_add]; rfl), by rw [d64k3_eq 3 (by omega) (by omega)]⟩
  | 4, _ => exact ⟨S 4, (rfl : _ = Res.ok (0#32 + S 4, _)).trans (by rw [BitVec.zero_add]; rfl), by rw [d64k3_eq 4 (by omega) (by omega)]⟩
  | 5, _ => exact ⟨S 5, (rfl : _ = Res.ok (0#32 + S 5, _)).trans (by rw [BitVec.zero_add]; rfl), by rw [d64k3_eq 5 (by omega) (by omega)]⟩
  | 6, _ => exact ⟨S 6, (rfl : _ = Res.ok (0#32 + S 6, _)).trans (by rw [BitVec.zero_add]; rfl), by rw [d64k3_eq 6 (by omega) (by omega)]⟩
  | 7, _ => exact ⟨S 7, (rfl : _ = Res.ok (0#32 + S 7, _)).trans (by rw [BitVec.zero_add]; rfl), by rw [d64k3_eq 7 (by omega) (by omega)]⟩
  | 8, _ => exact ⟨0#32, rfl, by rw [hc 8 (by omega) (by omega)]; decide +kernel⟩
  | 9, _ => exact ⟨0#32, rfl, by rw [hc 9 (by omega) (by omega)]; decide +kernel⟩
  | 10, _ => exact ⟨0#32, rfl, by rw [hc 10 (by omega) (by omega)]; decide +kernel⟩
  | 11, _ => exact ⟨0#32, rfl, by rw [hc 11 (by omega) (by omega)]; decide +kernel⟩
  | 12, _ => exact ⟨0#32, rfl, by rw [hc 12 (by omega) (by omega)]; decide +kernel⟩
  | 13, _ => exact ⟨0#32, rfl, by rw [hc 13 (by omega) (by omega)]; decide +kernel⟩
  | 14, _ => exact ⟨0#32, rfl, by rw [hc 14 (by omega) (by omega)]; decide +kernel⟩
  | 15, _ => exact ⟨0#32, rfl, by rw [hc 15 (by omega) (by omega)]; decide +kernel⟩
  | 16, _ =>
    have hy : S 0 + (0#32 + sigma032 (S 1)) = S 16 := by rw [hrec 16 (by omega) (by omega)]; simp only [Nat.reduceSub, h8, h9, h10, h11, h12, h13, h14, h15, d64z0, d64z1, d64c0, d64c1, d64c2, BitVec.zero_add, BitVec.add_zero]; try ac_rfl
    exact ⟨S 16, (rfl : _ = Res.ok (S 0 + (0#32 + sigma032 (S 1)), (d64W S W0 16).set 0 (some (S 0 + (0#32 + sigma032 (S 1)))))).trans (by rw [hy]; rfl), by rw [d64k3_eq 16 (by omega) (by omega)]⟩
  | 17, _ =>
    have hy : S 1 + (0#32 + 0xa00000#32 + sigma032 (S 2)) = S 17 := by rw [hrec 17 (by omega) (by omega)]; simp only [Nat.reduceSub, h8, h9, h10, h11, h12, h13, h14, h15, d64z0, d64z1, d64c0, d64c1, d64c2, BitVec.zero_add, BitVec.add_zero]; try ac_rfl
    exact ⟨S 17, (rfl : _ = Res.ok (S 1 + (0#32 + 0xa00000#32 + sigma032 (S 2)), (d64W S W0 17).set 1 (some (S 1 + (0#32 + 0xa00000#32 + sigma032 (S 2)))))).trans (by rw [hy]; rfl), by rw [d64k3_eq 17 (by omega) (by omega)]⟩
  | 18, _ =>
    have hy : S 2 + (0#32 + sigma132 (S 16) + sigma032 (S 3)) = S 18 := by rw [hrec 18 (by omega) (by omega)]; simp only [Nat.reduceSub, h8, h9, h10, h11, h12, h13, h14, h15, d64z0, d64z1, d64c0, d64c1, d64c2, BitVec.zero_add, BitVec.add_zero]; try ac_rfl
    exact ⟨S 18, (rfl : _ = Res.ok (S 2 + (0#32 + sigma132 (S 16) + sigma032 (S 3)), (d64W S W0 18).set 2 (some (S 2 + (0#32 + sigma132 (S 16) + sigma032 (S 3)))))).trans (by rw [hy]; rfl), by rw [d64k3_eq 18 (by omega) (by omega)]⟩
  | 19, _ =>
    have hy : S 3 + (0#32 + sigma132 (S 17) + sigma032 (S 4)) = S 19 := by rw [hrec 19 (by omega) (by omega)]; simp only [Nat.reduceSub, h8, h9, h10, h11, h12, h13, h14, h15, d64z0, d64z1, d64c0, d64c1, d64c2, BitVec.zero_add, BitVec.add_zero]; try ac_rfl
    exact ⟨S 19, (rfl : _ = Res.ok (S 3 + (0#32 + sigma132 (S 17) + sigma032 (S 4)), (d64W S W0 19).set 3 (some (S 3 + (0#32 + sigma132 (S 17) + sigma032 (S 4)))))).trans (by rw [hy]; rfl), by rw [d64k3_eq 19 (by omega) (by omega)]⟩
  | 20, _ =>
    have hy : S 4 + (0#32 + sigma132 (S 18) + sigma032 (S 5)) = S 20 := by rw [hrec 20 (by omega) (by omega)]; simp only [Nat.reduceSub, h8, h9, h10, h11, h12, h13, h14, h15, d64z0, d64z1, d64c0, d64c1, d64c2, BitVec.zero_add, BitVec.add_zero]; try ac_rfl
    exact ⟨S 20, (rfl : _ = Res.ok (S 4 + (0#32 + sigma132 (S 18) + sigma032 (S 5)), (d64W S W0 20).set 4 (some (S 4 + (0#32 + sigma132 (S 18) + sigma032 (S 5)))))).trans (by rw [hy]; rfl), by rw [d64k3_eq 20 (by omega) (by omega)]⟩
  | 21, _ =>
    have hy : S 5 + (0#32 + sigma132 (S 19) + sigma032 (S 6)) = S 21 := by rw [hrec 21 (by omega) (by omega)]; simp only [Nat.reduceSub, h8, h9, h10, h11, h12, h13, h14, h15, d64z0, d64z1, d64c0, d64c1, d64c2, BitVec.zero_add, BitVec.add_zero]; try ac_rfl
    exact ⟨S 21, (rfl : _ = Res.ok (S 5 + (0#32 + sigma132 (S 19) + sigma032 (S 6)), (d64W S W0 21).set 5 (some (S 5 + (0#32 + sigma132 (S 19) + sigma032 (S 6)))))).trans (by rw [hy]; rfl), by rw [d64k3_eq 21 (by omega) (by omega)]⟩
  | 22, _ =>
    have hy : S 6 + (0#32 + sigma132 (S 20) + 0x100#32 + sigma032 (S 7)) = S 22 := by rw [hrec 22 (by omega) (by omega)]; simp only [Nat.reduceSub, h8, h9, h10, h11, h12, h13, h14, h15, d64z0, d64z1, d64c0, d64c1, d64c2, BitVec.zero_add, BitVec.add_zero]; try ac_rfl
    exact ⟨S 22, (rfl : _ = Res.ok (S 6 + (0#32 + sigma132 (S 20) + 0x100#32 + sigma032 (S 7)), (d64W S W0 22).set 6 (some (S 6 + (0#32 + sigma132 (S 20) + 0x100#32 + sigma032 (S 7)))))).trans (by rw [hy]; rfl), by rw [d64k3_eq 22 (by omega) (by omega)]⟩
  | 23, _ =>
    have hy : S 7 + (0#32 + sigma132 (S 21) + S 16 + 0x11002000#32) = S 23 := by rw [hrec 23 (by omega) (by omega)]; simp only [Nat.reduceSub, h8, h9, h10, h11, h12, h13, h14, h15, d64z0, d64z1, d64c0, d64c1, d64c2, BitVec.zero_add, BitVec.add_zero]; try ac_rfl
    exact ⟨S 23, (rfl : _ = Res.ok (S 7 + (0#32 + sigma132 (S 21) + S 16 + 0x11002000#32), (d64W S W0 23).set 7 (some (S 7 + (0#32 + sigma132 (S 21) + S 16 + 0x11002000#32))))).trans (by rw [hy]; rfl), by rw [d64k3_eq 23 (by omega) (by omega)]⟩
  | 24, _ =>
    have hy : 0#32 + 0x80000000#32 + sigma132 (S 22) + S 17 = S 24 := by rw [hrec 24 (by omega) (by omega)]; simp only [Nat.reduceSub, h8, h9, h10, h11, h12, h13, h14, h15, d64z0, d64z1, d64c0, d64c1, d64c2, BitVec.zero_add, BitVec.add_zero]; try ac_rfl
    exact ⟨S 24, (rfl : _ = Res.ok (0#32 + 0x80000000#32 + sigma132 (S 22) + S 17, (d64W S W0 24).set 8 (some (0#32 + 0x80000000#32 + sigma132 (S 22) + S 17)))).trans (by rw [hy]; rfl), by rw [d64k3_eq 24 (by omega) (by omega)]⟩
  | 25, _ =>
    have hy : 0#32 + sigma132 (S 23) + S 18 = S 25 := by rw [hrec 25 (by omega) (by omega)]; simp only [Nat.reduceSub, h8, h9, h10, h11, h12, h13, h14, h15, d64z0, d64z1, d64c0, d64c1, d64c2, BitVec.zero_add, BitVec.add_zero]; try ac_rfl
    exact ⟨S 25, (rfl : _ = Res.ok (0#32 + sigma132 (S 23) + S 18, (d64W S W0 25).set 9 (some (0#32 + sigma132 (S 23) + S 18)))).trans (by rw [hy]; rfl), by rw [d64k3_eq 25 (by omega) (by omega)]⟩
  | 26, _ =>
    have hy : 0#32 + sigma132 (S 24) + S 19 = S 26 := by rw [hrec 26 (by omega) (by omega)]; simp only [Nat.reduceSub, h8, h9, h10, h11, h12, h13, h14, h15, d64z0, d64z1, d64c0, d64c1, d64c2, BitVec.zero_add, BitVec.add_zero]; try ac_rfl
    exact ⟨S 26, (rfl : _ = Res.ok (0#32 + sigma132 (S 24) + S 19, (d64W S W0 26).set 10 (some (0#32 + sigma132 (S 24) + S 19)))).trans (by rw [hy]; rfl), by rw [d64k3_eq 26 (by omega) (by omega)]⟩
  | 27, _ =>
    have hy : 0#32 + sigma132 (S 25) + S 20 = S 27 := by rw [hrec 27 (by omega) (by omega)]; simp only [Nat.reduceSub, h8, h9, h10, h11, h12, h13, h14, h15, d64z0, d64z1, d64c0, d64c1, d64c2, BitVec.zero_add, BitVec.add_zero]; try ac_rfl
    exact ⟨S 27, (rfl : _ = Res.ok (0#32 + sigma132 (S 25) + S 20, (d64W S W0 27).set 11 (some (0#32 + sigma132 (S 25) + S 20)))).trans (by rw [hy]; rfl), by rw [d64k3_eq 27 (by omega) (by omega)]⟩
  | 28, _ =>
    have hy : 0#32 + sigma132 (S 26) + S 21 = S 28 := by rw [hrec 28 (by omega) (by omega)]; simp only [Nat.reduceSub, h8, h9, h10, h11, h12, h13, h14, h15, d64z0, d64z1, d64c0, d64c1, d64c2, BitVec.zero_add, BitVec.add_zero]; try ac_rfl
    exact ⟨S 28, (rfl : _ = Res.ok (0#32 + sigma132 (S 26) + S 21, (d64W S W0 28).set 12 (some (0#32 + sigma132 (S 26) + S 21)))).trans (by rw [hy]; rfl), by rw [d64k3_eq 28 (by omega) (by omega)]⟩
  | 29, _ =>
    have hy : 0#32 + sigma132 (S 27) + S 22 = S 29 := by rw [hrec 29 (by omega) (by omega)]; simp only [Nat.reduceSub, h8, h9, h10, h11, h12, h13, h14, h15, d64z0, d64z1, d64c0, d64c1, d64c2, BitVec.zero_add, BitVec.add_zero]; try ac_rfl
    exact ⟨S 29, (rfl : _ = Res.ok (0#32 + sigma132 (S 27) + S 22, (d64W S W0 29).set 13 (some (0#32 + sigma132 (S 27) + S 22)))).trans (by rw [hy]; rfl), by rw [d64k3_eq 29 (by omega) (by omega)]⟩
  | 30, _ =>
    have hy : 0#32 + sigma132 (S 28) + S 23 + 0x400022#32 = S 30 := by rw [hrec 30 (by omega) (by omega)]; simp only [Nat.reduceSub, h8, h9, h10, h11, h12, h13, h14, h15, d64z0, d64z1, d64c0, d64c1, d64c2, BitVec.zero_add, BitVec.add_zero]; try ac_rfl
    exact ⟨S 30, (rfl : _ = Res.ok (0#32 + sigma132 (S 28) + S 23 + 0x400022#32, (d64W S W0 30).set 14 (some (0#32 + sigma132 (S 28) + S 23 + 0x400022#32)))).trans (by rw [hy]; rfl), by rw [d64k3_eq 30 (by omega) (by omega)]⟩
  | 31, _ =>
    have hy : 0#32 + 0x100#32 + sigma132 (S 29) + S 24 + sigma032 (S 16) = S 31 := by rw [hrec 31 (by omega) (by omega)]; simp only [Nat.reduceSub, h8, h9, h10, h11, h12, h13, h14, h15, d64z0, d64z1, d64c0, d64c1, d64c2, BitVec.zero_add, BitVec.add_zero]; try ac_rfl
    exact ⟨S 31, (rfl : _ = Res.ok (0#32 + 0x100#32 + sigma132 (S 29) + S 24 + sigma032 (S 16), (d64W S W0 31).set 15 (some (0#32 + 0x100#32 + sigma132 (S 29) + S 24 + sigma032 (S 16))))).trans (by rw [hy]; rfl), by rw [d64k3_eq 31 (by omega) (by omega)]⟩
  | n + 32, h => exact absurd h (by omega)

theorem transform3_eq (be : Nat → Res U32) (D : List U32) (hD : D.length = 8)
    (W : List (Option U32)) (hW : W.length = 16) :
    ∃ R W', exec macros32 be d64Prog3 iv256 (D.map some ++ W.drop 8) = .ok (R, W') ∧
      List.zipWith (· + ·) R iv256 = compress Sha2Spec.sha256 iv256
        (D ++ [0x80000000#32, 0#32, 0#32, 0#32, 0#32, 0#32, 0#32, 0x100#32]) := by
  obtain ⟨M, hMdef⟩ : ∃ M, M = D ++ [0x80000000#32, 0#32, 0#32, 0#32, 0#32, 0#32, 0#32, 0x100#32] :=
    ⟨_, rfl⟩
  rw [← hMdef]
  have hM : M.length = 16 := by rw [hMdef, List.length_append, hD]; rfl
  let S : Nat → U32 := fun t => (schedule Sha2Spec.sha256 M).getD t 0#32
  have hold : ∀ t, t < 16 → S t = M.getD t 0#32 := fun t h => extendN_old _ _ _ _ (by omega)
  have hc : ∀ t, 8 ≤ t → t < 16 → S t = padWord32 t := by
    intro t h1 h2
    rw [hold t h2, hMdef, List.getD_eq_getElem?_getD, List.getElem?_append_right (by omega), hD]
    have : t = 8 ∨ t = 9 ∨ t = 10 ∨ t = 11 ∨ t = 12 ∨ t = 13 ∨ t = 14 ∨ t = 15 := by omega
    rcases this with rfl | rfl | rfl | rfl | rfl | rfl | rfl | rfl <;> rfl
  have hrec : ∀ t, 16 ≤ t → t < 64 →
      S t = sigma132 (S (t-2)) + S (t-7) + sigma032 (S (t-15)) + S (t-16) := by
    intro t h1 h2
    have := extendN_new Sha2Spec.sha256 48 M t (by omega) (by omega) (by omega)
    have e0 := agree32.s0; have e1 := agree32.s1
    simp only at this
    rw [← e1, ← e0] at this
    exact this
  have hW0 : D.map some ++ W.drop 8 = d64W S W 0 := by
    apply List.ext_getElem
    · simp [d64W, hD, hW]
    · intro j h1 h2
      simp only [d64W, List.length_map, List.length_range] at h2
      by_cases hj : j < 8
      · rw [List.getElem_append_left (by simpa [hD] using hj)]
        simp only [d64W, List.getElem_map, List.getElem_range]
        rw [if_neg (by omega), if_pos hj, hold j (by omega), hMdef, List.getD_eq_getElem?_getD,
          List.getElem?_append_left (by omega), List.getElem?_eq_getElem (by omega)]
        rfl
      · rw [List.getElem_append_right (by simp [hD]; omega)]
        simp only [d64W, List.getElem_map, List.getElem_range]
        rw [if_neg (by omega), if_neg hj, List.getD_eq_getElem?_getD,
          List.getElem?_eq_getElem (by omega)]
        simp only [List.getElem_drop, List.length_map, hD, Option.getD_some]
        congr 1; omega
  have h1 := exec_chain agree32 be (fun t => d64Prog3.getD t defRound)
    (fun t => BitVec.ofNat 32 (K256.getD t 0)) S (d64W S W) 32 0
    (fun t _ h => d64Prog3_regs ⟨t, by omega⟩)
    (fun t _ h => d64_step be S W hc hrec t (by omega)) (varsOf iv256)
  rw [regsAt_varsOf iv256 rfl, Nat.zero_add, ← hW0] at h1
  have hinv : WInv (schedule Sha2Spec.sha256 M) 64 32 (d64W S W 32) := by
    refine ⟨by simp [d64W], fun t h1 h2 h3 => ?_⟩
    have ht : t % 16 < 16 := by omega
    simp only [d64W, List.getD_eq_getElem?_getD, List.getElem?_map, List.getElem?_range ht,
      Option.map_some, Option.getD_some]
    rw [if_pos (by omega), show 16 + t % 16 = t by omega]
    simp only [S, List.getD_eq_getElem?_getD]
  obtain ⟨W', h2, -⟩ := exec_gen agree32 be (schedule Sha2Spec.sha256 M) K256 64 4
    (fun t h1 h2 => extendN_new _ 48 M t (by omega) (by omega) (by omega)) 32 32 (by omega)
    (fun j h1 h2 => by omega)
    (Sha2Spec.rounds Sha2Spec.sha256 (varsOf iv256) ((List.range' 0 32).map fun t =>
      (BitVec.ofNat 32 (K256.getD t 0), S t))) (d64W S W 32) hinv
  have h3 : exec macros32 be (((List.range' 0 32).map fun t => d64Prog3.getD t defRound) ++
      (List.range' 32 32).map (genRound K256 64 4)) iv256 (D.map some ++ W.drop 8) =
      exec macros32 be ((List.range' 32 32).map (genRound K256 64 4)) (regsAt 32
          (rounds sha256 (varsOf iv256)
            (List.map (fun t => (BitVec.ofNat 32 (K256.getD t 0), S t)) (List.range' 0 32)))) 
          (d64W S W 32) := by
    rw [exec_append, h1]
    rw [Res.ok_bind]
  rw [← d64Prog3_eq, h2] at h3
  refine ⟨_, W', h3, ?_⟩
  rw [← rounds_append, ← List.map_append, regsAt_64, compress_eq iv256 M rfl hM]
  rw [show List.range' 0 32 ++ List.range' 32 32 = List.range' 0 64 from List.range'_append_1]
  generalize Sha2Spec.rounds Sha2Spec.sha256 _ _ = r
  simp [varList, iv256, BitVec.add_comm]

/-! ### The padded messages -/

theorem pad64 (m : List Byte) (h : m.length = 64) :
    ∃ p, pad Sha2Spec.sha256 m = m ++ p ∧ p.length = 64 ∧ words Sha2Spec.sha256 p = padWords64 := by
  refine ⟨[0x80#8] ++ List.replicate 55 0#8 ++ beBytes 8 512, ?_, by decide, by decide +kernel⟩
  rw [pad, h]
  simp only [List.append_assoc]
  rfl

theorem words_append (a b : List Byte) (q : Nat) (h : a.length = q * 4) :
    words Sha2Spec.sha256 (a ++ b) = words Sha2Spec.sha256 a ++ words Sha2Spec.sha256 b := by
  rw [words, words, words, ← List.map_append]
  congr 1
  exact pieces_append 4 (by omega) a b q h

theorem beNat_beBytes4 (x : U32) : BitVec.ofNat 32 (beNat (beBytes 4 x.toNat)) = x := by
  apply BitVec.eq_of_toNat_eq
  have := x.isLt
  simp only [beBytes, List.range, List.range.loop, List.map, beNat, List.foldl, BitVec.toNat_ofNat]
  omega

theorem words_flatMap (xs : List U32) :
    words Sha2Spec.sha256 (xs.flatMap fun x => beBytes 4 x.toNat) = xs := by
  induction xs with
  | nil => rfl
  | cons x xs ih =>
    rw [List.flatMap_cons, words_append _ _ 1 (beBytes_length _ _), ih]
    have : words Sha2Spec.sha256 (beBytes 4 x.toNat) = [x] := by
      show (pieces 4 _).map _ = _
      rw [pieces_single 4 (by omega) _ (beBytes_length _ _)]
      simp [beNat_beBytes4]
    rw [this]; rfl

theorem pad32 (m : List Byte) (h : m.length = 32) :
    ∃ p, pad Sha2Spec.sha256 m = m ++ p ∧ p.length = 32 ∧ words Sha2Spec.sha256 p =
      [0x80000000#32, 0#32, 0#32, 0#32, 0#32, 0#32, 0#32, 0x100#32] := by
  refine ⟨[0x80#8] ++ List.replicate 23 0#8 ++ beBytes 8 256, ?_, by decide, by decide +kernel⟩
  rw [pad, h]
  simp only [List.append_assoc]
  rfl

theorem d64Transform_eq (host : Host) (out inp : List Byte) (ho : 32 ≤ out.length)
    (hi : 64 ≤ inp.length) :
    d64Transform host out inp = .ok (over (SHA256 (SHA256 (inp.take 64))) out) := by
  have hl : (inp.take 64).length = 64 := by rw [List.length_take]; omega
  obtain ⟨R1, W1, h1, hW1, -, h1'⟩ := transform_gen agree32 (readBig32 host inp) sha256Prog
    (words Sha2Spec.sha256 (inp.take 64)) 64 4 rfl (by omega) rfl K256_length sha256Prog_eq
    (by rw [words_length, hl]; rfl)
    (fun j hj => by
      rw [words_getD _ _ _ (by rw [hl]; exact hj), readBig32_eq host inp (4*j) (by omega)]
      show _ = Res.ok (BitVec.ofNat 32 (beNat (((inp.take 64).drop (4*j)).take 4)))
      rw [List.drop_take, List.take_take, Nat.min_eq_left (by omega)]) iv256 rfl
  obtain ⟨p1, hp1, hp1l, hp1w⟩ := pad64 (inp.take 64) hl
  -- first SHA-256
  have hfirst : hashWords Sha2Spec.sha256 (inp.take 64) = compress Sha2Spec.sha256
      (compress Sha2Spec.sha256 iv256 (words Sha2Spec.sha256 (inp.take 64))) padWords64 := by
    rw [hashWords_eq, hp1, runBlocks_cons _ _ _ _ (by decide) hl, ← iv256_eq, runBlocks]
    show (pieces 64 p1).foldl _ _ = _
    rw [pieces_single 64 (by omega) p1 hp1l, List.foldl_cons, List.foldl_nil, hp1w]
  obtain ⟨R2, h2, h2'⟩ := transform2_eq (readBig32 host inp)
    (compress Sha2Spec.sha256 iv256 (words Sha2Spec.sha256 (inp.take 64))) rfl W1
  obtain ⟨R3, W3, h3, h3'⟩ := transform3_eq (readBig32 host inp)
    (compress Sha2Spec.sha256 (compress Sha2Spec.sha256 iv256
      (words Sha2Spec.sha256 (inp.take 64))) padWords64) rfl W1 hW1
  rw [d64Transform, d64Prog1_eq, h1]
  simp only [Res.ok_bind, h1']
  rw [h2]
  simp only [Res.ok_bind]
  rw [show List.zipWith (fun x y => some (x + y))
      (compress Sha2Spec.sha256 iv256 (words Sha2Spec.sha256 (inp.take 64))) R2 =
      (List.zipWith (· + ·)
        (compress Sha2Spec.sha256 iv256 (words Sha2Spec.sha256 (inp.take 64))) R2).map some by
    rw [List.map_zipWith], h2', h3]
  simp only [Res.ok_bind, h3']
  rw [storeBig32_eq _ _ _ (by rw [compress_length]; omega), ← hfirst]
  -- second SHA-256
  have hd := SHA256_length (inp.take 64)
  obtain ⟨p2, hp2, hp2l, hp2w⟩ := pad32 (SHA256 (inp.take 64)) hd
  have hsecond : hashWords Sha2Spec.sha256 (SHA256 (inp.take 64)) = compress Sha2Spec.sha256 iv256
      (hashWords Sha2Spec.sha256 (inp.take 64) ++
        [0x80000000#32, 0#32, 0#32, 0#32, 0#32, 0#32, 0#32, 0x100#32]) := by
    rw [hashWords_eq, hp2, runBlocks]
    show (pieces 64 _).foldl _ _ = _
    rw [pieces_single 64 (by omega) _ (by rw [List.length_append]; omega), List.foldl_cons,
      List.foldl_nil, words_append _ _ 8 hd, hp2w, iv256_eq]
    congr 1
    congr 1
    exact words_flatMap _
  rw [← hsecond]
  rfl

end Sha2
