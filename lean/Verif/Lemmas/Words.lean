import Verif.Model.Endian
import Verif.Spec.Words
import Verif.Lemmas.Basic

namespace Endian
open WordSpec

theorem ext_lo {n : Nat} (x : BitVec n) (b : Byte) : (x ++ b).extractLsb' 0 8 = b := by
  apply BitVec.eq_of_getLsbD_eq
  intro i hi
  simp [BitVec.getLsbD_append, hi]

theorem ext_hi {n : Nat} (x : BitVec n) (b : Byte) (k : Nat) :
    (x ++ b).extractLsb' (k + 8) 8 = x.extractLsb' k 8 := by
  apply BitVec.eq_of_getLsbD_eq
  intro i hi
  have h1 : ¬ (k + 8 + i < 8) := by omega
  have h2 : k + 8 + i - 8 = k + i := by omega
  simp [BitVec.getLsbD_append, hi, h2]
  omega

theorem ext_self (b : Byte) : b.extractLsb' 0 8 = b := by
  apply BitVec.eq_of_getLsbD_eq
  intro i hi
  simp [hi]

theorem ext_eq {n : Nat} (x : BitVec n) (s : Nat) :
    x.extractLsb' s 8 = BitVec.ofNat 8 (x.toNat / 2^s) := by
  apply BitVec.eq_of_toNat_eq
  simp [BitVec.extractLsb'_toNat, Nat.shiftRight_eq_div_pow]

theorem append_ofNat {n : Nat} (x : Nat) (b : Byte) (h : x < 2^n) :
    (BitVec.ofNat n x ++ b) = BitVec.ofNat (n+8) (x * 256 + b.toNat) := by
  apply BitVec.eq_of_toNat_eq
  have hb := b.isLt
  rw [BitVec.toNat_append, ← Nat.shiftLeft_add_eq_or_of_lt hb, BitVec.toNat_ofNat,
    BitVec.toNat_ofNat, Nat.mod_eq_of_lt h, Nat.shiftLeft_eq, Nat.pow_add]
  rw [Nat.mod_eq_of_lt]
  have : (x + 1) * 2^8 ≤ 2^n * 2^8 := Nat.mul_le_mul_right _ h
  omega

theorem beNat_snoc (bs : List Byte) (b : Byte) : beNat (bs ++ [b]) = beNat bs * 256 + b.toNat := by
  simp [beNat]

theorem beNat_lt (bs : List Byte) : beNat bs < 2^(8 * bs.length) := by
  suffices h : ∀ n (acc : Nat), acc < 2^(8*n) →
      bs.foldl (fun n b => n * 256 + b.toNat) acc < 2^(8 * (n + bs.length)) by
    have := h 0 0 (by simp)
    simpa [beNat] using this
  induction bs with
  | nil => intro n acc h; simpa using h
  | cons b bs ih =>
    intro n acc h
    have hb := b.isLt
    have := ih (n+1) (acc * 256 + b.toNat) (by
      have : (acc + 1) * 256 ≤ 2^(8*n) * 256 := Nat.mul_le_mul_right _ h
      rw [Nat.mul_add, Nat.pow_add]; omega)
    simpa [Nat.add_assoc, Nat.add_comm, Nat.add_left_comm] using this

theorem append_beNat (bs : List Byte) (b : Byte) (n : Nat) (hn : n = 8 * bs.length) :
    (BitVec.ofNat n (beNat bs) ++ b) = BitVec.ofNat (n+8) (beNat (bs ++ [b])) := by
  subst hn
  rw [append_ofNat _ _ (beNat_lt bs), beNat_snoc]

theorem byte_beNat (b : Byte) : b = BitVec.ofNat 8 (beNat [b]) := by
  simp [beNat]

theorem append32_eq (b0 b1 b2 b3 : Byte) :
    (b0 ++ b1 ++ b2 ++ b3 : BitVec 32) = BitVec.ofNat 32 (beNat [b0, b1, b2, b3]) := by
  have e1 := append_beNat [b0] b1 8 rfl
  rw [← byte_beNat] at e1
  have e2 := append_beNat [b0, b1] b2 16 rfl
  have e3 := append_beNat [b0, b1, b2] b3 24 rfl
  refine Eq.trans ?_ e3
  show ((b0 ++ b1 ++ b2 : BitVec 24) ++ b3 : BitVec 32) = _
  congr 1
  refine Eq.trans ?_ e2
  show ((b0 ++ b1 : BitVec 16) ++ b2 : BitVec 24) = _
  congr 1

theorem append64_eq (b0 b1 b2 b3 b4 b5 b6 b7 : Byte) :
    (b0 ++ b1 ++ b2 ++ b3 ++ b4 ++ b5 ++ b6 ++ b7 : BitVec 64) =
      BitVec.ofNat 64 (beNat [b0, b1, b2, b3, b4, b5, b6, b7]) := by
  have e4 := append_beNat [b0, b1, b2, b3] b4 32 rfl
  have e5 := append_beNat [b0, b1, b2, b3, b4] b5 40 rfl
  have e6 := append_beNat [b0, b1, b2, b3, b4, b5] b6 48 rfl
  have e7 := append_beNat [b0, b1, b2, b3, b4, b5, b6] b7 56 rfl
  refine Eq.trans ?_ e7
  show ((b0 ++ b1 ++ b2 ++ b3 ++ b4 ++ b5 ++ b6 : BitVec 56) ++ b7 : BitVec 64) = _
  congr 1
  refine Eq.trans ?_ e6
  show ((b0 ++ b1 ++ b2 ++ b3 ++ b4 ++ b5 : BitVec 48) ++ b6 : BitVec 56) = _
  congr 1
  refine Eq.trans ?_ e5
  show ((b0 ++ b1 ++ b2 ++ b3 ++ b4 : BitVec 40) ++ b5 : BitVec 48) = _
  congr 1
  refine Eq.trans ?_ e4
  show ((b0 ++ b1 ++ b2 ++ b3 : BitVec 32) ++ b4 : BitVec 40) = _
  congr 1
  exact append32_eq b0 b1 b2 b3

theorem ext32 (b0 b1 b2 b3 : Byte) :
    (b0 ++ b1 ++ b2 ++ b3 : BitVec 32).extractLsb' 0 8 = b3 ∧
    (b0 ++ b1 ++ b2 ++ b3 : BitVec 32).extractLsb' 8 8 = b2 ∧
    (b0 ++ b1 ++ b2 ++ b3 : BitVec 32).extractLsb' 16 8 = b1 ∧
    (b0 ++ b1 ++ b2 ++ b3 : BitVec 32).extractLsb' 24 8 = b0 := by
  refine ⟨ext_lo _ _, ?_, ?_, ?_⟩
  · exact (ext_hi _ _ 0).trans (ext_lo _ _)
  · exact (ext_hi _ _ 8).trans ((ext_hi _ _ 0).trans (ext_lo _ _))
  · exact (ext_hi _ _ 16).trans ((ext_hi _ _ 8).trans ((ext_hi _ _ 0).trans (ext_self _)))

theorem ext64 (b0 b1 b2 b3 b4 b5 b6 b7 : Byte) :
    let x := (b0 ++ b1 ++ b2 ++ b3 ++ b4 ++ b5 ++ b6 ++ b7 : BitVec 64)
    x.extractLsb' 0 8 = b7 ∧ x.extractLsb' 8 8 = b6 ∧ x.extractLsb' 16 8 = b5 ∧
    x.extractLsb' 24 8 = b4 ∧ x.extractLsb' 32 8 = b3 ∧ x.extractLsb' 40 8 = b2 ∧
    x.extractLsb' 48 8 = b1 ∧ x.extractLsb' 56 8 = b0 := by
  intro x
  have h := ext32 b0 b1 b2 b3
  have up : ∀ k c, (b0 ++ b1 ++ b2 ++ b3 : BitVec 32).extractLsb' k 8 = c →
      x.extractLsb' (k+8+8+8+8) 8 = c := by
    intro k c e
    exact (ext_hi _ _ (k+8+8+8)).trans ((ext_hi _ _ (k+8+8)).trans
      ((ext_hi _ _ (k+8)).trans ((ext_hi _ _ k).trans e)))
  refine ⟨ext_lo _ _, ?_, ?_, ?_, up 0 _ h.1, up 8 _ h.2.1, up 16 _ h.2.2.1, up 24 _ h.2.2.2⟩
  · exact (ext_hi _ _ 0).trans (ext_lo _ _)
  · exact (ext_hi _ _ 8).trans ((ext_hi _ _ 0).trans (ext_lo _ _))
  · exact (ext_hi _ _ 16).trans ((ext_hi _ _ 8).trans ((ext_hi _ _ 0).trans (ext_lo _ _)))

/-- Native value of four bytes, converted to big endian: the big-endian number of the bytes. -/
theorem htobe32_native (h : Host) (b0 b1 b2 b3 : Byte) :
    htobe32 h (native32 h b0 b1 b2 b3) = BitVec.ofNat 32 (beNat [b0, b1, b2, b3]) := by
  rw [← append32_eq]
  cases h with
  | big => rfl
  | little =>
    obtain ⟨e0, e1, e2, e3⟩ := ext32 b3 b2 b1 b0
    simp only [htobe32, native32, bswap32, e0, e1, e2, e3]

theorem htole32_native (h : Host) (b0 b1 b2 b3 : Byte) :
    htole32 h (native32 h b0 b1 b2 b3) = BitVec.ofNat 32 (beNat [b3, b2, b1, b0]) := by
  rw [← append32_eq]
  cases h with
  | little => rfl
  | big =>
    obtain ⟨e0, e1, e2, e3⟩ := ext32 b0 b1 b2 b3
    simp only [htole32, native32, bswap32, e0, e1, e2, e3]

theorem htobe64_native (h : Host) (b0 b1 b2 b3 b4 b5 b6 b7 : Byte) :
    htobe64 h (native64 h b0 b1 b2 b3 b4 b5 b6 b7) =
      BitVec.ofNat 64 (beNat [b0, b1, b2, b3, b4, b5, b6, b7]) := by
  rw [← append64_eq]
  cases h with
  | big => rfl
  | little =>
    obtain ⟨e0, e1, e2, e3, e4, e5, e6, e7⟩ := ext64 b7 b6 b5 b4 b3 b2 b1 b0
    simp only [htobe64, native64, bswap64, e0, e1, e2, e3, e4, e5, e6, e7]

theorem htole64_native (h : Host) (b0 b1 b2 b3 b4 b5 b6 b7 : Byte) :
    htole64 h (native64 h b0 b1 b2 b3 b4 b5 b6 b7) =
      BitVec.ofNat 64 (beNat [b7, b6, b5, b4, b3, b2, b1, b0]) := by
  rw [← append64_eq]
  cases h with
  | little => rfl
  | big =>
    obtain ⟨e0, e1, e2, e3, e4, e5, e6, e7⟩ := ext64 b0 b1 b2 b3 b4 b5 b6 b7
    simp only [htole64, native64, bswap64, e0, e1, e2, e3, e4, e5, e6, e7]

theorem native32_bytes32 (h : Host) (v : U32) :
    ∃ b0 b1 b2 b3, bytes32 h v = [b0, b1, b2, b3] ∧ native32 h b0 b1 b2 b3 = v := by
  have e : (v.extractLsb' 24 8 ++ v.extractLsb' 16 8 ++ v.extractLsb' 8 8 ++ v.extractLsb' 0 8
      : BitVec 32) = v := by
    rw [append32_eq]
    apply BitVec.eq_of_toNat_eq
    have := v.isLt
    simp only [beNat, List.foldl, BitVec.toNat_ofNat, BitVec.extractLsb'_toNat,
      Nat.shiftRight_eq_div_pow]
    omega
  cases h with
  | big => exact ⟨_, _, _, _, rfl, e⟩
  | little => exact ⟨_, _, _, _, rfl, e⟩

theorem native64_bytes64 (h : Host) (v : U64) :
    ∃ b0 b1 b2 b3 b4 b5 b6 b7, bytes64 h v = [b0, b1, b2, b3, b4, b5, b6, b7] ∧
      native64 h b0 b1 b2 b3 b4 b5 b6 b7 = v := by
  have e : (v.extractLsb' 56 8 ++ v.extractLsb' 48 8 ++ v.extractLsb' 40 8 ++ v.extractLsb' 32 8 ++
      v.extractLsb' 24 8 ++ v.extractLsb' 16 8 ++ v.extractLsb' 8 8 ++ v.extractLsb' 0 8
      : BitVec 64) = v := by
    rw [append64_eq]
    apply BitVec.eq_of_toNat_eq
    have := v.isLt
    simp only [beNat, List.foldl, BitVec.toNat_ofNat, BitVec.extractLsb'_toNat,
      Nat.shiftRight_eq_div_pow]
    omega
  cases h with
  | big => exact ⟨_, _, _, _, _, _, _, _, rfl, e⟩
  | little => exact ⟨_, _, _, _, _, _, _, _, rfl, e⟩

theorem bytes32_htobe32 (h : Host) (v : U32) : bytes32 h (htobe32 h v) = beBytes 4 v.toNat := by
  have e : [v.extractLsb' 24 8, v.extractLsb' 16 8, v.extractLsb' 8 8, v.extractLsb' 0 8] =
      beBytes 4 v.toNat := by
    simp only [ext_eq]; rfl
  rw [← e]
  cases h with
  | big => rfl
  | little =>
    obtain ⟨e0, e1, e2, e3⟩ := ext32 (v.extractLsb' 0 8) (v.extractLsb' 8 8) (v.extractLsb' 16 8)
      (v.extractLsb' 24 8)
    simp only [htobe32, bswap32, bytes32, e0, e1, e2, e3]

theorem bytes32_htole32 (h : Host) (v : U32) : bytes32 h (htole32 h v) = leBytes 4 v.toNat := by
  have e : [v.extractLsb' 0 8, v.extractLsb' 8 8, v.extractLsb' 16 8, v.extractLsb' 24 8] =
      leBytes 4 v.toNat := by
    simp only [ext_eq]; rfl
  rw [← e]
  cases h with
  | little => rfl
  | big =>
    obtain ⟨e0, e1, e2, e3⟩ := ext32 (v.extractLsb' 0 8) (v.extractLsb' 8 8) (v.extractLsb' 16 8)
      (v.extractLsb' 24 8)
    simp only [htole32, bswap32, bytes32, e0, e1, e2, e3]

theorem bytes64_htobe64 (h : Host) (v : U64) : bytes64 h (htobe64 h v) = beBytes 8 v.toNat := by
  have e : [v.extractLsb' 56 8, v.extractLsb' 48 8, v.extractLsb' 40 8, v.extractLsb' 32 8,
      v.extractLsb' 24 8, v.extractLsb' 16 8, v.extractLsb' 8 8, v.extractLsb' 0 8] =
      beBytes 8 v.toNat := by
    simp only [ext_eq]; rfl
  rw [← e]
  cases h with
  | big => rfl
  | little =>
    obtain ⟨e0, e1, e2, e3, e4, e5, e6, e7⟩ := ext64 (v.extractLsb' 0 8) (v.extractLsb' 8 8)
      (v.extractLsb' 16 8) (v.extractLsb' 24 8) (v.extractLsb' 32 8) (v.extractLsb' 40 8)
      (v.extractLsb' 48 8) (v.extractLsb' 56 8)
    simp only [htobe64, bswap64, bytes64, e0, e1, e2, e3, e4, e5, e6, e7]

theorem bytes64_htole64 (h : Host) (v : U64) : bytes64 h (htole64 h v) = leBytes 8 v.toNat := by
  have e : [v.extractLsb' 0 8, v.extractLsb' 8 8, v.extractLsb' 16 8, v.extractLsb' 24 8,
      v.extractLsb' 32 8, v.extractLsb' 40 8, v.extractLsb' 48 8, v.extractLsb' 56 8] =
      leBytes 8 v.toNat := by
    simp only [ext_eq]; rfl
  rw [← e]
  cases h with
  | little => rfl
  | big =>
    obtain ⟨e0, e1, e2, e3, e4, e5, e6, e7⟩ := ext64 (v.extractLsb' 0 8) (v.extractLsb' 8 8)
      (v.extractLsb' 16 8) (v.extractLsb' 24 8) (v.extractLsb' 32 8) (v.extractLsb' 40 8)
      (v.extractLsb' 48 8) (v.extractLsb' 56 8)
    simp only [htole64, bswap64, bytes64, e0, e1, e2, e3, e4, e5, e6, e7]

theorem bytes32_length (h : Host) (v : U32) : (bytes32 h v).length = 4 := by cases h <;> rfl
theorem bytes64_length (h : Host) (v : U64) : (bytes64 h v).length = 8 := by cases h <;> rfl
theorem beBytes_length (n v : Nat) : (beBytes n v).length = n := by simp [beBytes]
theorem leBytes_length (n v : Nat) : (leBytes n v).length = n := by simp [leBytes]

theorem drop_take_getElem {α : Type} (l : List α) (n : Nat) (h : n < l.length) :
    l.drop n = l[n] :: l.drop (n+1) := List.drop_eq_getElem_cons h

theorem readBig32_eq (h : Host) (mem : List Byte) (off : Nat) (hl : off + 4 ≤ mem.length) :
    readBig32 h mem off = .ok (BitVec.ofNat 32 (beNat ((mem.drop off).take 4))) := by
  rw [readBig32, load32, rd_ok mem off (by omega), rd_ok mem (off+1) (by omega),
    rd_ok mem (off+2) (by omega), rd_ok mem (off+3) (by omega)]
  simp only [Res.ok_bind, Res.pure_eq, htobe32_native]
  rw [drop_take_getElem mem off (by omega), drop_take_getElem mem (off+1) (by omega),
    drop_take_getElem mem (off+1+1) (by omega), drop_take_getElem mem (off+1+1+1) (by omega)]
  rfl

theorem readLittle32_eq (h : Host) (mem : List Byte) (off : Nat) (hl : off + 4 ≤ mem.length) :
    readLittle32 h mem off = .ok (BitVec.ofNat 32 (beNat ((mem.drop off).take 4).reverse)) := by
  rw [readLittle32, load32, rd_ok mem off (by omega), rd_ok mem (off+1) (by omega),
    rd_ok mem (off+2) (by omega), rd_ok mem (off+3) (by omega)]
  simp only [Res.ok_bind, Res.pure_eq, htole32_native]
  rw [drop_take_getElem mem off (by omega), drop_take_getElem mem (off+1) (by omega),
    drop_take_getElem mem (off+1+1) (by omega), drop_take_getElem mem (off+1+1+1) (by omega)]
  rfl

theorem load64_eq (h : Host) (mem : List Byte) (off : Nat) (hl : off + 8 ≤ mem.length) :
    load64 h mem off = .ok (native64 h mem[off] mem[off+1] mem[off+2] mem[off+3] mem[off+4]
      mem[off+5] mem[off+6] mem[off+7]) := by
  rw [load64, rd_ok mem off (by omega), rd_ok mem (off+1) (by omega),
    rd_ok mem (off+2) (by omega), rd_ok mem (off+3) (by omega), rd_ok mem (off+4) (by omega),
    rd_ok mem (off+5) (by omega), rd_ok mem (off+6) (by omega), rd_ok mem (off+7) (by omega)]
  rfl

theorem take8_drop {α : Type} (mem : List α) (off : Nat) (hl : off + 8 ≤ mem.length) :
    (mem.drop off).take 8 = [mem[off], mem[off+1], mem[off+2], mem[off+3], mem[off+4],
      mem[off+5], mem[off+6], mem[off+7]] := by
  rw [drop_take_getElem mem off (by omega), drop_take_getElem mem (off+1) (by omega),
    drop_take_getElem mem (off+1+1) (by omega), drop_take_getElem mem (off+1+1+1) (by omega),
    drop_take_getElem mem (off+1+1+1+1) (by omega), drop_take_getElem mem (off+1+1+1+1+1) (by omega),
    drop_take_getElem mem (off+1+1+1+1+1+1) (by omega),
    drop_take_getElem mem (off+1+1+1+1+1+1+1) (by omega)]
  rfl

theorem readBig64_eq (h : Host) (mem : List Byte) (off : Nat) (hl : off + 8 ≤ mem.length) :
    readBig64 h mem off = .ok (BitVec.ofNat 64 (beNat ((mem.drop off).take 8))) := by
  rw [readBig64, load64_eq h mem off hl, take8_drop mem off hl]
  simp only [Res.ok_bind, Res.pure_eq, htobe64_native]

theorem readLittle64_eq (h : Host) (mem : List Byte) (off : Nat) (hl : off + 8 ≤ mem.length) :
    readLittle64 h mem off = .ok (BitVec.ofNat 64 (beNat ((mem.drop off).take 8).reverse)) := by
  rw [readLittle64, load64_eq h mem off hl, take8_drop mem off hl]
  simp only [Res.ok_bind, Res.pure_eq, htole64_native]
  rfl

theorem leNat_reverse (bs : List Byte) : leNat bs = beNat bs.reverse := by
  induction bs with
  | nil => rfl
  | cons b bs ih => rw [List.reverse_cons, beNat_snoc, leNat, ih]; omega

end Endian
