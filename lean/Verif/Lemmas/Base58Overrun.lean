import Verif.Lemmas.Base58Check
/-! A base58 text that stands for more bytes than the output object has makes the decoder write out of
bounds. -/
namespace Base58

theorem decOut_loop_bound (b256 : List Byte) (z it0 : Nat) : ∀ (k i : Nat) (out o : List Byte),
    forLoop (decOut b256 z it0) i k out = .ok o → o.length = out.length ∧
      (k ≠ 0 → z + (i + k - 1 - it0) < out.length)
  | 0, i, out, o, h => by
    injection h with h; subst h; exact ⟨rfl, fun h => absurd rfl h⟩
  | k+1, i, out, o, h => by
    rw [forLoop] at h
    cases hd : decOut b256 z it0 i out with
    | ub => rw [hd] at h; cases h
    | abort => rw [hd] at h; cases h
    | ok o1 =>
      rw [hd, Res.ok_bind] at h
      have ih := decOut_loop_bound b256 z it0 k (i+1) o1 o h
      unfold decOut at hd
      cases hr : rd b256 i with
      | ub => rw [hr] at hd; cases hd
      | abort => rw [hr] at hd; cases hd
      | ok d =>
        rw [hr, Res.ok_bind, wr] at hd
        by_cases hl : z + (i - it0) < out.length
        · rw [if_pos hl] at hd
          injection hd with hd
          have hl1 : o1.length = out.length := by rw [← hd, List.length_set]
          refine ⟨ih.1.trans hl1, fun _ => ?_⟩
          by_cases hk : k = 0
          · subst hk; simpa using hl
          · have := ih.2 hk
            rw [hl1] at this
            omega
        · rw [if_neg hl] at hd; cases hd

theorem decOut_loop_noabort (b256 : List Byte) (z it0 : Nat) : ∀ (k i : Nat) (out : List Byte),
    forLoop (decOut b256 z it0) i k out ≠ .abort
  | 0, i, out => by simp [forLoop]
  | k+1, i, out => by
    rw [forLoop]
    have hd : decOut b256 z it0 i out ≠ .abort := by
      unfold decOut rd wr
      cases b256[i]? with
      | none => simp
      | some d => simp only [Res.ok_bind]; split <;> simp
    cases h : decOut b256 z it0 i out with
    | ub => simp
    | abort => exact absurd h hd
    | ok o => exact decOut_loop_noabort b256 z it0 k (i+1) o

theorem fromBase58_overrun_aux (cs : Bool) (str : List Byte) (strLen : Nat) (big m buf : List Byte) (k : Nat)
    (h : fromBase58 cs str strLen big = .ok (m, k)) (hk : buf.length < k) :
    fromBase58 cs str strLen buf = .ub := by
  unfold fromBase58 at h ⊢
  cases h1 : skipSpaces cs str 0 with
  | ub => rfl
  | abort => rw [h1] at h; cases h
  | ok a =>
    obtain ⟨str1, skipped⟩ := a
    rw [h1] at h
    simp only [Res.ok_bind] at h ⊢
    cases h2 : countOnes str1 0 with
    | ub => rfl
    | abort => rw [h2] at h; cases h
    | ok a =>
      obtain ⟨str2, zeroes⟩ := a
      rw [h2] at h
      simp only [Res.ok_bind] at h ⊢
      by_cases hz : zeroes ≥ 2^31
      · rw [if_pos hz]
      rw [if_neg hz] at h ⊢
      cases h3 : workSize ((strLen : Int) - (skipped : Int) - (zeroes : Int)) with
      | ub => rfl
      | abort => rw [h3] at h; cases h
      | ok size =>
        rw [h3] at h
        simp only [Res.ok_bind] at h ⊢
        cases h4 : digitLoop cs size str2 (List.replicate size 0#8) 0 with
        | ub => rfl
        | abort => rw [h4] at h; cases h
        | ok a =>
          rw [h4] at h
          simp only [Res.ok_bind] at h ⊢
          cases a with
          | none =>
            simp only [Res.pure_eq, Res.ok.injEq, Prod.mk.injEq] at h
            omega
          | some a =>
            obtain ⟨str3, b256, length⟩ := a
            simp only at h ⊢
            cases h5 : skipTrailing cs str3 with
            | ub => rfl
            | abort => rw [h5] at h; cases h
            | ok str4 =>
              rw [h5] at h
              simp only [Res.ok_bind] at h ⊢
              cases h6 : rd str4 0 with
              | ub => rfl
              | abort => rw [h6] at h; cases h
              | ok c =>
                rw [h6] at h
                simp only [Res.ok_bind] at h ⊢
                by_cases hc : c ≠ 0#8
                · rw [if_pos hc] at h
                  simp only [Res.pure_eq, Res.ok.injEq, Prod.mk.injEq] at h
                  omega
                rw [if_neg hc] at h ⊢
                cases h7 : skipZeroes b256 length (size - length) with
                | ub => rfl
                | abort => rw [h7] at h; cases h
                | ok it =>
                  rw [h7] at h
                  simp only [Res.ok_bind] at h ⊢
                  have hkk : k = zeroes + (size - it) := by
                    cases h8 : memset big 0 0#8 zeroes with
                    | ub => rw [h8] at h; cases h
                    | abort => rw [h8] at h; cases h
                    | ok o =>
                      rw [h8] at h
                      simp only [Res.ok_bind] at h
                      cases h9 : forLoop (decOut b256 zeroes it) it (size - it) o with
                      | ub => rw [h9] at h; cases h
                      | abort => rw [h9] at h; cases h
                      | ok o2 =>
                        rw [h9] at h
                        simp only [Res.ok_bind, Res.pure_eq, Res.ok.injEq, Prod.mk.injEq] at h
                        exact h.2.symm
                  rw [memset]
                  by_cases hm : 0 + zeroes ≤ buf.length
                  · rw [if_pos hm]
                    simp only [Res.ok_bind]
                    generalize hob : (List.take 0 buf ++ List.replicate zeroes 0#8 ++ List.drop (0 + zeroes) buf) = ob
                    have hobl : ob.length = buf.length := by
                      rw [← hob]
                      simp only [List.take_zero, List.nil_append, List.length_append, List.length_replicate,
                        List.length_drop]
                      omega
                    cases h9 : forLoop (decOut b256 zeroes it) it (size - it) ob with
                    | ub => rfl
                    | abort => exact absurd h9 (decOut_loop_noabort _ _ _ _ _ _)
                    | ok o2 =>
                      have := decOut_loop_bound _ _ _ _ _ _ _ h9
                      rw [hobl] at this
                      have h10 := this.2
                      omega
                  · rw [if_neg hm]; rfl

/-- Decoding a text of more bytes than the object at `buf` has is an out-of-bounds write. -/
theorem fromBase58_overrun (cs : Bool) (s post buf W : List Byte) (h0 : ∀ b ∈ s, b ≠ 0#8)
    (h7 : cs = true → ∀ b ∈ s, b.toNat < 128) (hlen : s.length ≤ 2929669)
    (hd : Base58Spec.decode? s = some W) (hW : buf.length < W.length) :
    fromBase58 cs (s ++ 0#8 :: post) s.length buf = .ub := by
  have hl : s.length * 733 < 2 ^ 31 := by
    have : s.length * 733 ≤ 2929669 * 733 := Nat.mul_le_mul_right _ hlen
    omega
  have := fromBase58_eq cs s post (List.replicate W.length 0#8) h0 h7 hl (by
    intro W' h; rw [hd] at h; injection h with h; subst h; simp)
  rw [hd] at this
  exact fromBase58_overrun_aux cs _ _ _ _ buf _ this hW

end Base58

namespace Base58Check

theorem fromBase58Check_overrun (host : Host) (cs : Bool) (s post buf W : List Byte) (h0 : ∀ b ∈ s, b ≠ 0#8)
    (h7 : cs = true → ∀ b ∈ s, b.toNat < 128) (hlen : s.length ≤ 2929669)
    (hd : Base58Spec.decode? s = some W) (hW : buf.length < W.length) :
    fromBase58Check host cs (s ++ 0#8 :: post) s.length buf = .ub := by
  rw [fromBase58Check, Base58.fromBase58_overrun cs s post buf W h0 h7 hlen hd hW]
  rfl

end Base58Check
