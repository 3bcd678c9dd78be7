import Verif.Lemmas.ReleaseBase58
import Verif.Lemmas.Address
/-! Bech32 in a release build. -/
namespace Release
open Bech32

theorem rd_char_le (v : Byte) (h : v.toNat ≤ 32) : rd BECH32_ENCODE v.toNat = .ok (Bech32Spec.char v) := by
  have : ∀ v : Byte, v.toNat ≤ 32 → rd BECH32_ENCODE v.toNat = .ok (Bech32Spec.char v) := by decide +kernel
  exact this v h

theorem rd_char_gt (v : Byte) (h : 32 < v.toNat) : rd BECH32_ENCODE v.toNat = .ub := by
  have : ∀ v : Byte, 32 < v.toNat → rd BECH32_ENCODE v.toNat = .ub := by decide +kernel
  exact this v h

/-- The data loop of a release build. -/
def dataBody (m : Nat) (b32 : List Byte) (i : Nat) (result : List Byte) : Res (List Byte) := do
  let v ← rd b32 i
  assertNd true (v.toNat < 32)
  wr result (m + 1 + i) (← rd BECH32_ENCODE v.toNat)

theorem bech32Encode_release (hrp : List Byte) (m : Nat) (b32 : List Byte) (n : Nat) (out : List Byte)
    (hm : m ≤ hrp.length) (hn : n ≤ b32.length) (hlt : ∀ v ∈ b32.take n, v.toNat ≤ 32)
    (ho : m + n + 7 ≤ out.length) :
    bech32Encode true hrp m b32 n out = .ok (over (Bech32Spec.encode (hrp.take m) (b32.take n)) out) := by
  rw [bech32Encode, createChecksum_eq _ _ _ _ _ hm hn (by simp)]
  simp only [Res.ok_bind]
  have hml : (hrp.take m).length = m := by rw [List.length_take]; omega
  have hnl : (b32.take n).length = n := by rw [List.length_take]; omega
  have e0 := memcpy_over [] out hrp 0 m rfl hm (by simp; omega)
  rw [over_nil, List.nil_append] at e0
  rw [e0]
  simp only [Res.ok_bind]
  rw [wr_over _ _ _ _ hml.symm (by omega)]
  simp only [Res.ok_bind]
  have e1 := wr_loop (dataBody m b32) (hrp.take m ++ [chr '1']) ((b32.take n).map Bech32Spec.char) out
    (by
      intro i hi mem
      have hi' : i < n := by rw [List.length_map, hnl] at hi; exact hi
      have hib : i < b32.length := by omega
      have hv := hlt b32[i] (List.mem_take_iff_getElem.mpr ⟨i, by omega, rfl⟩)
      unfold dataBody
      simp only [rd_ok b32 i hib, Res.ok_bind]
      rw [rd_char_le _ hv]
      simp only [assertNd, if_true, Res.ok_bind, List.length_append, hml,
        List.length_cons, List.length_nil, Nat.zero_add, List.getElem_map, List.getElem_take])
    (by simp; omega)
  unfold dataBody at e1
  rw [List.length_map, hnl] at e1
  rw [e1]
  simp only [Res.ok_bind]
  have e2 := wr_loop (fun i result => do
    let v ← rd (over (Bech32Spec.checksum (hrp.take m) (b32.take n)) (List.replicate 6 0xAA#8)) i
    wr result (m + 1 + n + i) (← rd BECH32_ENCODE v.toNat))
    (hrp.take m ++ [chr '1'] ++ (b32.take n).map Bech32Spec.char)
    ((Bech32Spec.checksum (hrp.take m) (b32.take n)).map Bech32Spec.char) out
    (by
      intro i hi mem
      have ho6 : over (Bech32Spec.checksum (hrp.take m) (b32.take n)) (List.replicate 6 0xAA#8) =
          Bech32Spec.checksum (hrp.take m) (b32.take n) := by
        rw [over, checksum_length, List.drop_eq_nil_of_le (by simp), List.append_nil]
      rw [ho6]
      have hi' : i < (Bech32Spec.checksum (hrp.take m) (b32.take n)).length := by simpa using hi
      have hv := checksum_lt (hrp.take m) (b32.take n) _ (List.getElem_mem hi')
      simp only [rd_ok _ i hi', Res.ok_bind]
      rw [rd_char _ hv]
      simp only [Res.ok_bind, List.length_append, hml, List.length_map, hnl,
        List.length_cons, List.length_nil, Nat.zero_add, List.getElem_map])
    (by simp [checksum_length]; omega)
  rw [List.length_map, checksum_length] at e2
  rw [e2, Bech32Spec.encode, List.map_append]
  rw [show chr '1' = 49#8 from by decide]
  simp only [List.append_assoc]

/-- Somewhere in the loop a value beyond the table is met. -/
theorem dataLoop_ub (m : Nat) (b32 : List Byte) (k : Nat) : ∀ (i : Nat) (out : List Byte),
    (∃ j, i ≤ j ∧ j < i + k ∧ ∃ h : j < b32.length, 32 < (b32[j]).toNat) → forLoop (dataBody m b32) i k out = .ub := by
  induction k with
  | zero => rintro i out ⟨j, h1, h2, -⟩; omega
  | succ k ih =>
    rintro i out ⟨j, h1, h2, hj, hv⟩
    rw [forLoop]
    have hi : i < b32.length := by omega
    by_cases hgt : 32 < (b32[i]).toNat
    · have : dataBody m b32 i out = .ub := by
        unfold dataBody
        rw [rd_ok b32 i hi]
        simp only [Res.ok_bind]
        rw [rd_char_gt _ hgt]
        rfl
      rw [this]; rfl
    · have hne : i ≠ j := by rintro rfl; exact hgt hv
      have : dataBody m b32 i out = wr out (m + 1 + i) (Bech32Spec.char b32[i]) := by
        unfold dataBody
        rw [rd_ok b32 i hi]
        simp only [Res.ok_bind]
        rw [rd_char_le _ (by omega)]
        rfl
      rw [this]
      unfold wr
      split
      · exact ih (i + 1) _ ⟨j, by omega, by omega, hj, hv⟩
      · rfl

theorem bech32Encode_ub (hrp : List Byte) (m : Nat) (b32 : List Byte) (n : Nat) (out : List Byte)
    (hm : m ≤ hrp.length) (hn : n ≤ b32.length) (hgt : ∃ v ∈ b32.take n, 32 < v.toNat) :
    bech32Encode true hrp m b32 n out = .ub := by
  rw [bech32Encode, createChecksum_eq _ _ _ _ _ hm hn (by simp)]
  simp only [Res.ok_bind]
  unfold memcpy
  split
  · simp only [Res.ok_bind]
    unfold wr
    split
    · simp only [Res.ok_bind]
      obtain ⟨v, hv, h32⟩ := hgt
      obtain ⟨j, hj, rfl⟩ := List.mem_take_iff_getElem.mp hv
      have := dataLoop_ub m b32 n 0 (((out.take 0 ++ hrp.take m ++ out.drop (0 + m)).set m (chr '1')))
        ⟨j, by omega, by omega, by omega, h32⟩
      unfold dataBody wr at this
      rw [this]; rfl
    · rfl
  · rfl

/-- In the debug build a value of 32 or more fails the assertion. -/
theorem bech32Encode_abort (hrp : List Byte) (m : Nat) (b32 : List Byte) (n : Nat) (out : List Byte)
    (hm : m ≤ hrp.length) (hn : n ≤ b32.length) (hge : ∃ v ∈ b32.take n, 32 ≤ v.toNat) (ho : m + n + 7 ≤ out.length) :
    Bech32.encode hrp m b32 n out = .abort := by
  rw [Bech32.encode, createChecksum_eq _ _ _ _ _ hm hn (by simp)]
  simp only [Res.ok_bind]
  rw [memcpy, if_pos ⟨hm, by omega⟩, Res.ok_bind]
  have hl0 : (out.take 0 ++ hrp.take m ++ out.drop (0 + m)).length = out.length := by simp; omega
  generalize out.take 0 ++ hrp.take m ++ out.drop (0 + m) = o0 at hl0
  rw [wr, if_pos (by omega), Res.ok_bind]
  have hl : (o0.set m (chr '1')).length = out.length := by rw [List.length_set, hl0]
  generalize o0.set m (chr '1') = o at hl
  have key : ∀ k i o, o.length = out.length → i + k = n → (∃ j, i ≤ j ∧ j < n ∧ ∃ h : j < b32.length, 32 ≤ (b32[j]).toNat) →
      forLoop (fun i result => do
        let v ← rd b32 i
        assertC (v.toNat < 32)
        wr result (m + 1 + i) (← rd BECH32_ENCODE v.toNat)) i k o = .abort := by
    intro k
    induction k with
    | zero => rintro i o - h1 ⟨j, h2, h3, -⟩; omega
    | succ k ih =>
      rintro i o hlo hik ⟨j, h2, h3, hj, hv⟩
      have hi : i < b32.length := by omega
      rw [forLoop]
      simp only [rd_ok b32 i hi, Res.ok_bind]
      by_cases hlt : (b32[i]).toNat < 32
      · rw [rd_char _ hlt, decide_eq_true hlt]
        simp only [assertC, if_true, Res.ok_bind]
        rw [wr, if_pos (by omega)]
        simp only [Res.ok_bind]
        have hne : i ≠ j := by rintro rfl; omega
        exact ih (i + 1) _ (by rw [List.length_set, hlo]) (by omega) ⟨j, by omega, h3, hj, hv⟩
      · rw [decide_eq_false hlt]; rfl
  obtain ⟨v, hv, h32⟩ := hge
  obtain ⟨j, hj, rfl⟩ := List.mem_take_iff_getElem.mp hv
  rw [key n 0 o hl (by omega) ⟨j, by omega, by omega, by omega, h32⟩]
  rfl

end Release
