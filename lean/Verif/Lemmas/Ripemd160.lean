import Verif.Model.Ripemd160
import Verif.Spec.Ripemd160
import Verif.Lemmas.Sha1

namespace Ripemd160
open WordSpec HashCommon Endian
open RipemdSpec (step lineL lineR compress pad words RIPEMD160 K' r' s' Vars)

def varList (s : Vars) : List U32 := [s.a, s.b, s.c, s.d, s.e]

/-- The registers before step `i`: register `p` plays the role of variable `(p + i) mod 5`. -/
def regsAt (i : Nat) (s : Vars) : List U32 :=
  (List.range 5).map fun p => (varList s).getD ((p + i) % 5) 0#32

def roleRegs (i : Nat) : List Nat := (List.range 5).map fun j => (j + 5 - i % 5) % 5

theorem roleRegs_mod (i : Nat) : roleRegs i = roleRegs (i % 5) := by simp [roleRegs]
theorem regsAt_mod (i : Nat) (s : Vars) : regsAt i s = regsAt (i % 5) s := by simp [regsAt]

def macL (i : Nat) : Mac := [Mac.FF, .GG, .HH, .II, .JJ].getD (i / 16) .FF
def macR (i : Nat) : Mac := [Mac.JJJ, .III, .HHH, .GGG, .FFF].getD (i / 16) .FF

def genL (i : Nat) : Step := ⟨macL i, roleRegs i, RipemdSpec.r i, RipemdSpec.s i⟩
def genR (i : Nat) : Step := ⟨macR i, roleRegs i, r' i, s' i⟩

theorem progL_eq : progL = (List.range' 0 80).map genL := by decide +kernel
theorem progR_eq : progR = (List.range' 0 80).map genR := by decide +kernel

theorem step_eq (X : List U32) (i : Nat) (m : Mac) (xi s : Nat) (v : Vars)
    (g : U32 → U32 → U32 → U32) (k : U32)
    (hm : ∀ b c d x, summand m b c d x = g b c d + x + k) :
    execStep X ⟨m, roleRegs i, xi, s⟩ (regsAt i v) =
      regsAt (i+1) (step v g k (X.getD xi 0#32) s) := by
  simp only [execStep, hm]
  generalize X.getD xi 0#32 = x
  have hT : ∀ a t : U32, a + (t + x + k) = a + t + x + k := by intro a t; ac_rfl
  simp only [hT]
  have hr : ∀ (a : U32) n, rol a n = rotl n a := fun _ _ => rfl
  simp only [hr]
  rw [roleRegs_mod, regsAt_mod i, regsAt_mod (i+1), show (i+1) % 5 = (i % 5 + 1) % 5 by omega]
  have hi : i % 5 < 5 := Nat.mod_lt _ (by omega)
  generalize i % 5 = q at hi
  match q, hi with
  | 0, _ | 1, _ | 2, _ | 3, _ | 4, _ => rfl

theorem K_vals : RipemdSpec.rootConst 2 2 = 0x5a827999#32 ∧ RipemdSpec.rootConst 2 3 = 0x6ed9eba1#32 ∧
    RipemdSpec.rootConst 2 5 = 0x8f1bbcdc#32 ∧ RipemdSpec.rootConst 2 7 = 0xa953fd4e#32 ∧
    RipemdSpec.rootConst 3 2 = 0x50a28be6#32 ∧ RipemdSpec.rootConst 3 3 = 0x5c4dd124#32 ∧
    RipemdSpec.rootConst 3 5 = 0x6d703ef3#32 ∧ RipemdSpec.rootConst 3 7 = 0x7a6d76e9#32 := by
  decide +kernel

theorem macL_eq (i : Nat) (h : i < 80) (b c d x : U32) :
    summand (macL i) b c d x = RipemdSpec.f i b c d + x + RipemdSpec.K i := by
  obtain ⟨k1, k2, k3, k4, -, -, -, -⟩ := K_vals
  have : i / 16 = 0 ∨ i / 16 = 1 ∨ i / 16 = 2 ∨ i / 16 = 3 ∨ i / 16 = 4 := by omega
  rw [macL, RipemdSpec.f, RipemdSpec.K, k1, k2, k3, k4]
  rcases this with e | e | e | e | e <;> rw [e]
  · rw [if_pos (by omega), if_pos (by omega), BitVec.add_zero]; rfl
  · rw [if_neg (by omega), if_pos (by omega), if_neg (by omega), if_pos (by omega)]; rfl
  · rw [if_neg (by omega), if_neg (by omega), if_pos (by omega), if_neg (by omega),
      if_neg (by omega), if_pos (by omega)]; rfl
  · rw [if_neg (by omega), if_neg (by omega), if_neg (by omega), if_pos (by omega),
      if_neg (by omega), if_neg (by omega), if_neg (by omega), if_pos (by omega)]; rfl
  · rw [if_neg (by omega), if_neg (by omega), if_neg (by omega), if_neg (by omega),
      if_neg (by omega), if_neg (by omega), if_neg (by omega), if_neg (by omega)]; rfl

theorem macR_eq (i : Nat) (h : i < 80) (b c d x : U32) :
    summand (macR i) b c d x = RipemdSpec.f (79 - i) b c d + x + K' i := by
  obtain ⟨-, -, -, -, k1, k2, k3, k4⟩ := K_vals
  have : i / 16 = 0 ∨ i / 16 = 1 ∨ i / 16 = 2 ∨ i / 16 = 3 ∨ i / 16 = 4 := by omega
  rw [macR, RipemdSpec.f, RipemdSpec.K', k1, k2, k3, k4]
  rcases this with e | e | e | e | e <;> rw [e]
  · rw [if_neg (by omega), if_neg (by omega), if_neg (by omega), if_neg (by omega),
      if_pos (by omega)]; rfl
  · rw [if_neg (by omega), if_neg (by omega), if_neg (by omega), if_pos (by omega),
      if_neg (by omega), if_pos (by omega)]; rfl
  · rw [if_neg (by omega), if_neg (by omega), if_pos (by omega), if_neg (by omega),
      if_neg (by omega), if_pos (by omega)]; rfl
  · rw [if_neg (by omega), if_pos (by omega), if_neg (by omega), if_neg (by omega),
      if_neg (by omega), if_pos (by omega)]; rfl
  · rw [if_pos (by omega), if_neg (by omega), if_neg (by omega), if_neg (by omega),
      if_neg (by omega), BitVec.add_zero]; rfl

theorem execL (X : List U32) (k i : Nat) (hk : i + k = 80) (v : Vars) :
    exec X ((List.range' i k).map genL) (regsAt i v) = regsAt 80 (lineL X k i v) := by
  induction k generalizing i v with
  | zero => simp [exec, lineL, ← hk]
  | succ k ih =>
    simp only [List.range'_succ, List.map_cons, exec, lineL]
    rw [genL, step_eq X i (macL i) _ _ v (RipemdSpec.f i) (RipemdSpec.K i) (macL_eq i (by omega)),
      ih (i+1) (by omega)]

theorem execR (X : List U32) (k i : Nat) (hk : i + k = 80) (v : Vars) :
    exec X ((List.range' i k).map genR) (regsAt i v) = regsAt 80 (lineR X k i v) := by
  induction k generalizing i v with
  | zero => simp [exec, lineR, ← hk]
  | succ k ih =>
    simp only [List.range'_succ, List.map_cons, exec, lineR]
    rw [genR, step_eq X i (macR i) _ _ v (RipemdSpec.f (79 - i)) (K' i) (macR_eq i (by omega)),
      ih (i+1) (by omega)]

theorem loadX_eq (host : Host) (chunk : List Byte) (hc : 64 ≤ chunk.length) (k i : Nat)
    (hk : i + k = 16) :
    loadX host chunk i k = .ok ((words (chunk.take 64)).drop i) := by
  have hl : (chunk.take 64).length = 64 := by rw [List.length_take]; omega
  have hwl : (words (chunk.take 64)).length = 16 := by simp [words, pieces, hc]
  induction k generalizing i with
  | zero => rw [loadX, List.drop_eq_nil_of_le (by omega)]
  | succ k ih =>
    rw [loadX, readLittle32_eq host chunk (i*4) (by omega), ih (i+1) (by omega)]
    simp only [Res.ok_bind, Res.pure_eq]
    rw [List.drop_eq_getElem_cons (l := words (chunk.take 64)) (i := i) (by omega)]
    congr 2
    simp only [words, pieces, List.map_map, List.getElem_map, List.getElem_range, Function.comp]
    rw [List.drop_take, List.take_take, Nat.min_eq_left (by omega), Nat.mul_comm, leNat_reverse]

theorem transform_eq (host : Host) (s : List U32) (chunk : List Byte) (hs : s.length = 5)
    (hc : 64 ≤ chunk.length) :
    transform host s chunk = .ok (compress s (words (chunk.take 64))) := by
  match s, hs with
  | [s0, s1, s2, s3, s4], _ =>
    have hL := execL (words (chunk.take 64)) 80 0 rfl ⟨s0, s1, s2, s3, s4⟩
    have hR := execR (words (chunk.take 64)) 80 0 rfl ⟨s0, s1, s2, s3, s4⟩
    rw [← progL_eq] at hL
    rw [← progR_eq] at hR
    have h0 : regsAt 0 ⟨s0, s1, s2, s3, s4⟩ = [s0, s1, s2, s3, s4] := rfl
    rw [h0] at hL hR
    rw [transform, loadX_eq host chunk hc 16 0 rfl]
    simp only [Res.ok_bind, Res.pure_eq, List.drop_zero]
    rw [hL, hR, compress]
    simp only [List.getD_cons_zero, List.getD_cons_succ]
    generalize lineL _ _ _ _ = l
    generalize lineR _ _ _ _ = r
    rw [regsAt_mod, regsAt_mod 80]
    show Res.ok [r.d + (l.c + s1), s2 + l.d + r.e, s3 + l.e + r.a, s4 + l.a + r.b, s0 + l.b + r.c] = _
    rw [show r.d + (l.c + s1) = s1 + l.c + r.d by ac_rfl]

theorem compress_length (H M : List U32) : (compress H M).length = 5 := rfl

theorem fold_length (ps : List (List Byte)) (H : List U32) (h : H.length = 5) :
    (ps.foldl (fun d b => compress d (words b)) H).length = 5 := by
  induction ps generalizing H with
  | nil => exact h
  | cons p ps ih => exact ih _ (compress_length _ _)

theorem storeLittle32_over (host : Host) (xs : List U32) (W out : List Byte) (off : Nat)
    (ho : off = W.length) (h : W.length + 4 * xs.length ≤ out.length) :
    storeLittle32 host (over W out) off xs =
      .ok (over (W ++ xs.flatMap fun x => leBytes 4 x.toNat) out) := by
  induction xs generalizing W off with
  | nil => simp [storeLittle32]
  | cons x xs ih =>
    simp only [List.length_cons] at h
    rw [storeLittle32, store32, memcpy_over W out _ off 4 ho (by rw [bytes32_length]; omega) (by omega),
      List.take_of_length_le (by rw [bytes32_length]; omega), bytes32_htole32]
    simp only [Res.ok_bind]
    rw [ih (W ++ leBytes 4 x.toNat) (off + 4) (by simp [leBytes_length, ho])
      (by simp [leBytes_length]; omega)]
    simp

theorem flatMap_leBytes_length (k : Nat) (xs : List U32) :
    (xs.flatMap fun x => leBytes k x.toNat).length = k * xs.length := by
  induction xs with
  | nil => simp
  | cons x xs ih =>
    rw [List.flatMap_cons, List.length_append, ih, leBytes_length, List.length_cons, Nat.mul_succ]; omega

theorem ripemd160_eq (host : Host) (msg : List Byte) (n : Nat) (hash : List Byte)
    (hn : n ≤ msg.length) (hlen : n < 2^61) (hh : 20 ≤ hash.length) :
    ripemd160 host msg n hash = .ok (over (RIPEMD160 (msg.take n)) hash) := by
  have hl : (msg.take n).length = n := by rw [List.length_take]; omega
  have hz : (64 - (n + 9) % 64) % 64 = zeroCount 64 55 n := by
    simp only [zeroCount]
    split <;> omega
  rw [ripemd160, finish_eq (transform host) (fun d b => compress d (words b)) 64 55 (by omega)
    (fun d => d.length = 5) (fun d b h => rfl) (fun d b h h2 => transform_eq host d b h h2) _
    (bytes64_length _ _) iv rfl msg n hn]
  simp only [Res.ok_bind]
  have := storeLittle32_over host ((pieces 64 (msg.take n ++ [0x80#8] ++
    List.replicate (zeroCount 64 55 n) 0#8 ++
      bytes64 host (htole64 host ((BitVec.ofNat 64 n) <<< 3)))).foldl
        (fun d b => compress d (words b)) iv) [] hash 0 rfl (by rw [fold_length _ _ rfl]; simp; omega)
  rw [over_nil, List.nil_append] at this
  rw [this, bytes64_htole64, Sha1.bitLen n hlen, RIPEMD160, pad, hl, hz, List.foldl_map]
  rfl

theorem RIPEMD160_length (msg : List Byte) : (RIPEMD160 msg).length = 20 := by
  rw [RIPEMD160, List.foldl_map]
  exact (flatMap_leBytes_length _ _).trans (by rw [fold_length _ _ rfl])

end Ripemd160
