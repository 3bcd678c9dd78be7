import Verif.Model.Sha1
import Verif.Spec.Sha1
import Verif.Lemmas.Sha2Hash

namespace Sha1
open Sha1Spec WordSpec HashCommon Endian

/-! ### Message schedule of the specification -/

theorem extend_length (ws : List U32) : (extend ws).length = ws.length + 1 := by simp [extend]

theorem extendN_length (n : Nat) (ws : List U32) : (extendN n ws).length = ws.length + n := by
  induction n generalizing ws with
  | zero => rfl
  | succ n ih => rw [extendN, ih, extend_length]; omega

theorem extendN_old (n : Nat) (ws : List U32) (i : Nat) (h : i < ws.length) :
    (extendN n ws).getD i 0#32 = ws.getD i 0#32 := by
  induction n generalizing ws with
  | zero => rfl
  | succ n ih =>
    rw [extendN, ih _ (by rw [extend_length]; omega)]
    simp [extend, List.getD_eq_getElem?_getD, List.getElem?_append_left h]

theorem extendN_new (n : Nat) (ws : List U32) (t : Nat) (h : ws.length ≤ t)
    (ht : t < ws.length + n) (h16 : 16 ≤ ws.length) (S : List U32) (hS : S = extendN n ws) :
    S.getD t 0#32 = rotl 1 (S.getD (t-3) 0#32 ^^^ S.getD (t-8) 0#32 ^^^ S.getD (t-14) 0#32 ^^^
      S.getD (t-16) 0#32) := by
  induction n generalizing ws with
  | zero => omega
  | succ n ih =>
    by_cases he : t = ws.length
    · subst he
      have hold : ∀ i, i < ws.length → S.getD i 0#32 = ws.getD i 0#32 :=
        fun i hi => by rw [hS]; exact extendN_old (n+1) ws i hi
      rw [hold (ws.length - 3) (by omega), hold (ws.length - 8) (by omega),
        hold (ws.length - 14) (by omega), hold (ws.length - 16) (by omega), hS, extendN,
        extendN_old _ _ _ (by rw [extend_length]; omega)]
      simp [extend, List.getD_eq_getElem?_getD]
    · exact ih (extend ws) (by rw [extend_length]; omega) (by rw [extend_length]; omega)
        (by rw [extend_length]; omega) hS

/-! ### Rounds -/

def varList (s : Vars) : List U32 := [s.a, s.b, s.c, s.d, s.e]

/-- The registers before round `i`: register `p` plays the role of variable `(p + i) mod 5`. -/
def regsAt (i : Nat) (s : Vars) : List U32 :=
  (List.range 5).map fun p => (varList s).getD ((p + i) % 5) 0#32

/-- Macro arguments of round `i`. -/
def roleRegs (i : Nat) : List Nat := (List.range 5).map fun j => (j + 5 - i % 5) % 5

theorem roleRegs_mod (i : Nat) : roleRegs i = roleRegs (i % 5) := by simp [roleRegs]
theorem regsAt_mod (i : Nat) (s : Vars) : regsAt i s = regsAt (i % 5) s := by simp [regsAt]

/-- Round `i` written straightforwardly. -/
def genRound (i : Nat) : Round :=
  ⟨roleRegs i, if i < 20 then .F1 else if i < 40 then .F2 else if i < 60 then .F3 else .F2,
    ((roleRegs i).drop 1).take 3, (K i).toNat,
    if i < 16 then .load i (4 * i)
    else .mix (if i + 3 < 80 then some (i % 16) else none) (i % 16) ((i-3) % 16) ((i-8) % 16)
      ((i-14) % 16)⟩

theorem prog_eq : prog = (List.range' 0 80).map genRound := by decide +kernel

theorem fn_eq (i : Nat) (x y z : U32) : evalFn (genRound i).fn x y z = f i x y z := by
  simp only [genRound, f]
  split
  · exact Sha2.ch_eq x y z
  · split
    · rfl
    · split
      · exact Sha2.maj_eq x y z
      · rfl

theorem execRound_eq (be : Nat → Res U32) (i : Nat) (fn : Fn) (k : Nat) (op : Op) (s : Vars)
    (W W' : List (Option U32)) (x : U32) (hop : evalOp be W op = .ok (x, W'))
    (hfn : ∀ x y z, evalFn fn x y z = f i x y z) (hk : BitVec.ofNat 32 k = K i) :
    execRound be ⟨roleRegs i, fn, ((roleRegs i).drop 1).take 3, k, op⟩ (regsAt i s) W =
      .ok (regsAt (i+1) (Sha1Spec.round i s x), W') := by
  simp only [execRound, hop, Res.ok_bind, Res.pure_eq, hfn, hk]
  have hT : ∀ a b c d e : U32, e + (rol a 5 + f i b c d + K i + x) = rotl 5 a + f i b c d + e + K i + x := by
    intro a b c d e
    rw [show rol a 5 = rotl 5 a from rfl]
    ac_rfl
  have hr : ∀ a : U32, rol a 30 = rotl 30 a := fun _ => rfl
  simp only [hT, hr]
  have : Sha1Spec.round i s x = ⟨rotl 5 s.a + f i s.b s.c s.d + s.e + K i + x, s.a, rotl 30 s.b, s.c, s.d⟩ := rfl
  rw [this]
  rw [roleRegs_mod, regsAt_mod i, regsAt_mod (i+1), show (i+1) % 5 = (i % 5 + 1) % 5 by omega]
  have hi : i % 5 < 5 := Nat.mod_lt _ (by omega)
  generalize K i = k
  generalize f i = g
  generalize i % 5 = r at hi
  match r, hi with
  | 0, _ | 1, _ | 2, _ | 3, _ | 4, _ => rfl

/-- Before round `i` the sixteen locals hold the last sixteen schedule words. -/
def WInv (S : List U32) (i : Nat) (W : List (Option U32)) : Prop :=
  W.length = 16 ∧ ∀ t, t < i → i ≤ t + 16 → t + 3 < 80 → W.getD (t % 16) none = some (S.getD t 0#32)

theorem WInv_set {S : List U32} {i : Nat} {W : List (Option U32)}
    (h : WInv S i W) : WInv S (i+1) (W.set (i % 16) (some (S.getD i 0#32))) := by
  refine ⟨by rw [List.length_set]; exact h.1, fun t h1 h2 h3 => ?_⟩
  by_cases e : t = i
  · subst e
    have : t % 16 < W.length := by rw [h.1]; omega
    simp [List.getD_eq_getElem?_getD, List.getElem?_set_self this]
  · have hne : i % 16 ≠ t % 16 := by omega
    have := h.2 t (by omega) (by omega) h3
    rw [List.getD_eq_getElem?_getD] at this ⊢
    rw [List.getElem?_set_ne hne]
    exact this

theorem WInv_end {S : List U32} {i : Nat} {W : List (Option U32)}
    (h : WInv S i W) (hi : 80 ≤ i + 3) : WInv S (i+1) W :=
  ⟨h.1, fun t h1 h2 h3 => h.2 t (by omega) (by omega) h3⟩

theorem genOp_eq (be : Nat → Res U32) (S : List U32) (i : Nat) (W : List (Option U32)) (hN : i < 80)
    (hbe : ∀ j, j < 16 → be (4 * j) = .ok (S.getD j 0#32))
    (hS : ∀ t, 16 ≤ t → t < 80 → S.getD t 0#32 = rotl 1 (S.getD (t-3) 0#32 ^^^ S.getD (t-8) 0#32 ^^^
      S.getD (t-14) 0#32 ^^^ S.getD (t-16) 0#32))
    (hW : WInv S i W) :
    ∃ W', evalOp be W (genRound i).op = .ok (S.getD i 0#32, W') ∧ WInv S (i+1) W' := by
  simp only [genRound]
  by_cases h16 : i < 16
  · rw [if_pos h16]
    refine ⟨W.set i (some (S.getD i 0#32)), ?_, ?_⟩
    · simp only [evalOp, hbe i h16, Res.ok_bind, Res.pure_eq]
    · have := WInv_set hW
      rwa [Nat.mod_eq_of_lt h16] at this
  · have r3 := Sha2.readW_eq (hW.2 (i-3) (by omega) (by omega) (by omega))
    have r8 := Sha2.readW_eq (hW.2 (i-8) (by omega) (by omega) (by omega))
    have r14 := Sha2.readW_eq (hW.2 (i-14) (by omega) (by omega) (by omega))
    have r16 := Sha2.readW_eq (hW.2 (i-16) (by omega) (by omega) (by omega))
    rw [show (i - 16) % 16 = i % 16 by omega] at r16
    have e : left (S.getD (i-16) 0#32 ^^^ S.getD (i-3) 0#32 ^^^ S.getD (i-8) 0#32 ^^^
        S.getD (i-14) 0#32) = S.getD i 0#32 := by
      rw [hS i (by omega) hN]
      show rotl 1 _ = rotl 1 _
      congr 1
      ac_rfl
    rw [if_neg h16]
    by_cases h2 : i + 3 < 80
    · rw [if_pos h2]
      refine ⟨_, ?_, WInv_set hW⟩
      simp only [evalOp, r3, r8, r14, r16, Res.ok_bind, Res.pure_eq, e]
    · rw [if_neg h2]
      refine ⟨W, ?_, WInv_end hW (by omega)⟩
      simp only [evalOp, r3, r8, r14, r16, Res.ok_bind, Res.pure_eq, e]

theorem exec_gen (be : Nat → Res U32) (S : List U32)
    (hbe : ∀ j, j < 16 → be (4 * j) = .ok (S.getD j 0#32))
    (hS : ∀ t, 16 ≤ t → t < 80 → S.getD t 0#32 = rotl 1 (S.getD (t-3) 0#32 ^^^ S.getD (t-8) 0#32 ^^^
      S.getD (t-14) 0#32 ^^^ S.getD (t-16) 0#32))
    (k i : Nat) (hk : i + k = 80) (s : Vars) (W : List (Option U32)) (hW : WInv S i W) :
    ∃ W', exec be ((List.range' i k).map genRound) (regsAt i s) W =
      .ok (regsAt 80 (Sha1Spec.rounds i s ((List.range' i k).map fun t => S.getD t 0#32)), W') := by
  induction k generalizing i s W with
  | zero => exact ⟨W, by simp [exec, Sha1Spec.rounds, ← hk]⟩
  | succ k ih =>
    obtain ⟨W1, h1, hW1⟩ := genOp_eq be S i W (by omega) hbe hS hW
    simp only [List.range'_succ, List.map_cons, exec, Sha1Spec.rounds]
    have hr := execRound_eq be i (genRound i).fn (K i).toNat (genRound i).op s W W1 _ h1 (fn_eq i)
      (by simp)
    have : genRound i = ⟨roleRegs i, (genRound i).fn, ((roleRegs i).drop 1).take 3, (K i).toNat,
      (genRound i).op⟩ := rfl
    rw [this, hr]
    exact ih (i+1) (by omega) _ W1 hW1

theorem words_eq (c : List Byte) : words c = Sha2Spec.words Sha2Spec.sha256 c := rfl

theorem transform_eq (host : Host) (s : List U32) (chunk : List Byte) (hs : s.length = 5)
    (hc : 64 ≤ chunk.length) :
    transform host s chunk = .ok (compress s (words (chunk.take 64))) := by
  have hl : (chunk.take 64).length = 64 := by rw [List.length_take]; omega
  generalize hMd : words (chunk.take 64) = M
  have hM : M.length = 16 := by rw [← hMd, words_eq, Sha2.words_length, hl]; rfl
  have hbe : ∀ j, j < 16 → readBig32 host chunk (4*j) = .ok ((schedule M).getD j 0#32) := by
    intro j hj
    rw [schedule, extendN_old _ _ _ (by omega), ← hMd, words_eq,
      Sha2.words_getD _ _ _ (by rw [hl]; exact hj), readBig32_eq host chunk (4*j) (by omega)]
    show _ = Res.ok (BitVec.ofNat 32 (beNat (((chunk.take 64).drop (4*j)).take 4)))
    rw [List.drop_take, List.take_take, Nat.min_eq_left (by omega)]
  match s, hs with
  | [s0, s1, s2, s3, s4], _ =>
    obtain ⟨W', h⟩ := exec_gen (readBig32 host chunk) (schedule M) hbe
      (fun t h1 h2 => extendN_new 64 M t (by omega) (by omega) (by omega) _ rfl) 80 0 rfl
      ⟨s0, s1, s2, s3, s4⟩ (List.replicate 16 none) ⟨by simp, fun t h => absurd h (by omega)⟩
    have e : (List.range' 0 80).map (fun t => (schedule M).getD t 0#32) = schedule M := by
      have hlen : (schedule M).length = 80 := by rw [schedule, extendN_length, hM]
      apply List.ext_getElem
      · simp [hlen]
      · intro i h1 h2
        simp [List.getD_eq_getElem?_getD, h2]
    rw [← prog_eq, e] at h
    have h0 : regsAt 0 ⟨s0, s1, s2, s3, s4⟩ = [s0, s1, s2, s3, s4] := rfl
    rw [h0] at h
    rw [transform, h, compress]
    simp only [Res.ok_bind, Res.pure_eq, List.getD_cons_zero, List.getD_cons_succ]
    generalize Sha1Spec.rounds 0 _ _ = r
    rw [regsAt_mod]
    simp [regsAt, varList, List.range_succ, BitVec.add_comm]

theorem compress_length (H M : List U32) : (compress H M).length = 5 := rfl

theorem fold_length (ps : List (List Byte)) (H : List U32) (h : H.length = 5) :
    (ps.foldl (fun d b => compress d (words b)) H).length = 5 := by
  induction ps generalizing H with
  | nil => exact h
  | cons p ps ih => exact ih _ (compress_length _ _)

theorem bitLen (n : Nat) (h : n < 2^61) : ((BitVec.ofNat 64 n) <<< 3).toNat = 8 * n :=
  Sha2.bitLength_toNat n 0 h

theorem sha1_eq (host : Host) (msg : List Byte) (n : Nat) (hash : List Byte)
    (hn : n ≤ msg.length) (hlen : n < 2^61) (hh : 20 ≤ hash.length) :
    sha1 host msg n hash = .ok (over (SHA1 (msg.take n)) hash) := by
  have hl : (msg.take n).length = n := by rw [List.length_take]; omega
  have hz : Sha2Spec.zeros Sha2Spec.sha256 n = zeroCount 64 55 n := by
    have := Sha2.zeros256 n 0
    rwa [show 64 * 0 + n = n by omega] at this
  rw [sha1, finish_eq (transform host) (fun d b => compress d (words b)) 64 55 (by omega)
    (fun d => d.length = 5) (fun d b h => rfl) (fun d b h h2 => transform_eq host d b h h2) _
    (bytes64_length _ _) iv rfl msg n hn]
  simp only [Res.ok_bind]
  rw [Sha2.storeBig32_eq _ _ _ (by rw [fold_length _ _ rfl]; omega), bytes64_htobe64, bitLen n hlen,
    SHA1, pad, Sha2Spec.pad, hl, hz, List.foldl_map]
  rfl

theorem SHA1_length (msg : List Byte) : (SHA1 msg).length = 20 := by
  rw [SHA1, List.foldl_map]
  exact (Sha2.flatMap_beBytes_length _ _).trans (by rw [fold_length _ _ rfl])

end Sha1
