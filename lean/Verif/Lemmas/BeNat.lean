import Verif.Lemmas.Words
import Mathlib.Tactic.Ring
import Mathlib.Tactic.Linarith
import Mathlib.Data.List.Induction
/-! Big-endian numbers (`WordSpec.beNat`, `WordSpec.beBytes`). -/
namespace WordSpec
open Endian

theorem beNat_foldl (bs : List Byte) (a : Nat) :
    bs.foldl (fun n b => n * 256 + b.toNat) a = a * 256 ^ bs.length + beNat bs := by
  induction bs generalizing a with
  | nil => simp [beNat]
  | cons b bs ih =>
    rw [beNat, List.foldl_cons, List.foldl_cons, ih, ih, List.length_cons, pow_succ]
    ring

theorem beNat_nil : beNat [] = 0 := rfl

theorem beNat_cons (b : Byte) (bs : List Byte) : beNat (b :: bs) = b.toNat * 256 ^ bs.length + beNat bs := by
  conv => lhs; rw [beNat, List.foldl_cons, beNat_foldl]
  simp

theorem beNat_append (a b : List Byte) : beNat (a ++ b) = beNat a * 256 ^ b.length + beNat b := by
  conv => lhs; rw [beNat, List.foldl_append, beNat_foldl]
  rfl

theorem beNat_lt_pow (bs : List Byte) : beNat bs < 256 ^ bs.length := by
  have := beNat_lt bs
  rwa [pow_mul] at this

theorem beNat_zeros (k : Nat) (l : List Byte) : beNat (List.replicate k 0#8 ++ l) = beNat l := by
  induction k with
  | zero => rfl
  | succ k ih => rw [List.replicate_succ, List.cons_append, beNat_cons, ih]; simp

theorem beNat_dropWhile (l : List Byte) : beNat (l.dropWhile (· = 0#8)) = beNat l := by
  induction l with
  | nil => rfl
  | cons b l ih =>
    by_cases h : b = 0#8
    · rw [List.dropWhile_cons_of_pos (by simp [h]), ih, beNat_cons, h]; simp
    · rw [List.dropWhile_cons_of_neg (by simp [h])]

theorem beNat_head_ge (b : Byte) (bs : List Byte) (h : b ≠ 0#8) : 256 ^ bs.length ≤ beNat (b :: bs) := by
  have : 0 < b.toNat := by
    rcases Nat.eq_zero_or_pos b.toNat with h0 | h0
    · exact absurd (BitVec.eq_of_toNat_eq (by simpa using h0)) h
    · exact h0
  rw [beNat_cons]
  nlinarith [Nat.pow_pos (n := bs.length) (show 0 < 256 by decide)]

theorem dropWhile_head_ne (l : List Byte) (b : Byte) (bs : List Byte) (h : l.dropWhile (· = 0#8) = b :: bs) :
    b ≠ 0#8 := by
  induction l with
  | nil => simp at h
  | cons c l ih =>
    by_cases hc : c = 0#8
    · rw [List.dropWhile_cons_of_pos (by simp [hc])] at h; exact ih h
    · rw [List.dropWhile_cons_of_neg (by simp [hc])] at h
      injection h with h1 h2
      rw [← h1]; exact hc

theorem beNat_long (l : List Byte) (k : Nat) (h : k < (l.dropWhile (· = 0#8)).length) : 256 ^ k ≤ beNat l := by
  rw [← beNat_dropWhile]
  cases hd : l.dropWhile (· = 0#8) with
  | nil => rw [hd] at h; simp at h
  | cons b bs =>
    rw [hd, List.length_cons] at h
    exact Nat.le_trans (Nat.pow_le_pow_right (by decide) (by omega)) (beNat_head_ge b bs (dropWhile_head_ne l b bs hd))

theorem beBytes_succ (k v : Nat) : beBytes (k+1) v = beBytes k (v / 256) ++ [BitVec.ofNat 8 v] := by
  rw [beBytes, List.range_succ, List.map_append, beBytes]
  congr 1
  · apply List.map_congr_left
    intro i hi
    rw [List.mem_range] at hi
    rw [Nat.div_div_eq_div_mul, ← pow_succ', show k + 1 - 1 - i = k - 1 - i + 1 by omega]
  · simp

theorem beNat_beBytes (k v : Nat) : beNat (beBytes k v) = v % 256 ^ k := by
  induction k generalizing v with
  | zero => rw [beBytes]; simp [beNat, Nat.mod_one]
  | succ k ih =>
    rw [beBytes_succ, beNat_snoc, ih, pow_succ', BitVec.toNat_ofNat, show (2:Nat)^8 = 256 from rfl,
      Nat.mod_mul]
    omega

theorem beNat_beBytes_lt (k v : Nat) (h : v < 256 ^ k) : beNat (beBytes k v) = v := by
  rw [beNat_beBytes, Nat.mod_eq_of_lt h]

theorem beBytes_beNat (bs : List Byte) : beBytes bs.length (beNat bs) = bs := by
  induction bs using List.reverseRecOn with
  | nil => rfl
  | append_singleton bs b ih =>
    have hb := b.isLt
    rw [List.length_append, List.length_singleton, beBytes_succ, beNat_snoc,
      show (beNat bs * 256 + b.toNat) / 256 = beNat bs by omega, ih]
    congr 2
    apply BitVec.eq_of_toNat_eq
    rw [BitVec.toNat_ofNat]
    omega

theorem beBytes_beNat_of_length (bs : List Byte) (k : Nat) (h : bs.length = k) : beBytes k (beNat bs) = bs := by
  rw [← h, beBytes_beNat]

theorem beNat_inj (a b : List Byte) (hl : a.length = b.length) (h : beNat a = beNat b) : a = b := by
  rw [← beBytes_beNat a, ← beBytes_beNat b, hl, h]

theorem beBytes_inj (k u v : Nat) (hu : u < 256 ^ k) (hv : v < 256 ^ k) (h : beBytes k u = beBytes k v) : u = v := by
  rw [← beNat_beBytes_lt k u hu, ← beNat_beBytes_lt k v hv, h]

theorem beBytes_zero (k : Nat) : beBytes k 0 = List.replicate k 0#8 := by
  rw [← beBytes_beNat_of_length (List.replicate k 0#8) k (by simp)]
  have := beNat_zeros k []
  rw [List.append_nil] at this
  rw [this]; rfl

end WordSpec
