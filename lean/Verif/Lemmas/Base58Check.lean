import Verif.Model.Base58Check
import Verif.Spec.Base58Check
import Verif.Lemmas.BtcHash
import Verif.Props.Base58

namespace Base58Check
open Base58CheckSpec

theorem checksum_length (p : List Byte) : (checksum p).length = 4 := by
  rw [checksum, List.length_take, BtcHash.hash256_length]; rfl

theorem check?_append (p : List Byte) : check? (p ++ checksum p) = some p := by
  have hl : (p ++ checksum p).length = p.length + 4 := by rw [List.length_append, checksum_length]
  rw [check?, hl, show p.length + 4 - 4 = p.length by omega, List.take_left, List.drop_left]
  rw [if_pos ⟨by omega, rfl⟩]

theorem check?_some {W p : List Byte} (h : check? W = some p) : W = p ++ checksum p := by
  rw [check?] at h
  split at h
  · rename_i hc
    injection h with h
    rw [← h, ← hc.2, List.take_append_drop]
  · simp at h

/-- Encoding is base58 of the payload with its checksum. -/
theorem toBase58Check_toBase58 (host : Host) (buf : List Byte) (n : Nat) (pre : List Byte) (m : Nat)
    (str : List Byte) (hn : n ≤ buf.length) (hm : m ≤ pre.length) (hsz : n + m < 2^61) :
    toBase58Check host buf n pre m str =
      Base58.toBase58 (pre.take m ++ buf.take n ++ checksum (pre.take m ++ buf.take n))
        (pre.take m ++ buf.take n ++ checksum (pre.take m ++ buf.take n)).length str := by
  have h1 : (pre.take m).length = m := by rw [List.length_take]; omega
  have h2 : (buf.take n).length = n := by rw [List.length_take]; omega
  rw [toBase58Check]
  have e0 : (List.replicate (n + m + 4) 0xAA#8 : List Byte) = over [] (List.replicate (n + m + 4) 0xAA#8) := by
    simp
  rw [e0, memcpy_over [] _ pre 0 m rfl hm (by simp; omega)]
  simp only [Res.ok_bind, List.nil_append]
  rw [memcpy_over _ _ buf m n h1.symm hn (by simp [h1]; omega)]
  simp only [Res.ok_bind]
  have hl : (pre.take m ++ buf.take n).length = n + m := by rw [List.length_append, h1, h2]; omega
  have ho := over_length (pre.take m ++ buf.take n) (List.replicate (n + m + 4) 0xAA#8) (by
    rw [hl]; simp)
  rw [BtcHash.hash256_eq host _ (n + m) _ (by rw [ho]; simp) (by omega) (by simp)]
  simp only [Res.ok_bind]
  rw [BtcHash.take_over hl]
  have hhl := BtcHash.hash256_length (pre.take m ++ buf.take n)
  rw [memcpy_over _ _ _ (n + m) 4 hl.symm (by rw [over_length _ _ (by simp [hhl])]; simp) (by
    rw [hl]; simp)]
  simp only [Res.ok_bind]
  have e1 : (over (BtcHashSpec.hash256 (pre.take m ++ buf.take n)) (List.replicate 32 0xAA#8)).take 4 =
      checksum (pre.take m ++ buf.take n) := by
    rw [over, List.take_append_of_le_length (by omega)]; rfl
  rw [e1]
  have hl2 : (pre.take m ++ buf.take n ++ checksum (pre.take m ++ buf.take n)).length = n + m + 4 := by
    rw [List.length_append, hl, checksum_length]
  have e2 : over (pre.take m ++ buf.take n ++ checksum (pre.take m ++ buf.take n))
      (List.replicate (n + m + 4) 0xAA#8) =
      pre.take m ++ buf.take n ++ checksum (pre.take m ++ buf.take n) := by
    rw [over, List.drop_eq_nil_of_le (by rw [hl2]; simp), List.append_nil]
  rw [e2, hl2]

theorem toBase58Check_eq (host : Host) (buf : List Byte) (n : Nat) (pre : List Byte) (m : Nat)
    (str : List Byte) (hn : n ≤ buf.length) (hm : m ≤ pre.length) (hsz : n + m + 4 < 2^30)
    (hs : (encode (pre.take m ++ buf.take n)).length ≤ str.length) :
    toBase58Check host buf n pre m str =
      .ok (over (encode (pre.take m ++ buf.take n)) str, (encode (pre.take m ++ buf.take n)).length) := by
  rw [toBase58Check_toBase58 host buf n pre m str hn hm (by omega)]
  refine C13_to_base58_canonical (pre.take m ++ buf.take n ++ checksum (pre.take m ++ buf.take n)) str ?_ hs
  rw [List.length_append, List.length_append, List.length_take, List.length_take, checksum_length]
  omega

/-- The checksum test behind the decoding of `W`. -/
theorem checkTail_eq (host : Host) (buf W : List Byte) (hW : W.length ≤ buf.length) (hl : W.length < 2 ^ 61) :
    (if W.length < 4 then pure (over W buf, 0)
     else do
      let hash ← BtcHash.hash256 host (over W buf) (W.length - 4) (List.replicate 32 0xAA#8)
      let same ← memeq hash ((over W buf).drop (W.length - 4)) 4
      if same then pure (over W buf, W.length - 4) else pure (over W buf, 0) : Res (List Byte × Nat)) =
    .ok (over W buf, match check? W with | some p => p.length | none => 0) := by
  by_cases h4 : W.length < 4
  · rw [if_pos h4, check?, if_neg (by omega)]; rfl
  · rw [if_neg h4, BtcHash.hash256_eq host _ _ _ (by rw [over_length _ _ hW]; omega) (by omega)
      (by simp)]
    simp only [Res.ok_bind]
    have e1 : (over W buf).take (W.length - 4) = W.take (W.length - 4) := by
      rw [over, List.take_append_of_le_length (by omega)]
    have e2 : ((over W buf).drop (W.length - 4)).take 4 = W.drop (W.length - 4) := by
      rw [over, List.drop_append_of_le_length (by omega), List.take_left' (by
        rw [List.length_drop]; omega)]
    have hhl := BtcHash.hash256_length (W.take (W.length - 4))
    rw [e1, memeq, if_pos ⟨by rw [over_length _ _ (by simp [hhl])]; simp, by
      rw [List.length_drop, over_length _ _ hW]; omega⟩, e2]
    have e3 : (over (BtcHashSpec.hash256 (W.take (W.length - 4))) (List.replicate 32 0xAA#8)).take 4 =
        checksum (W.take (W.length - 4)) := by
      rw [over, List.take_append_of_le_length (by omega)]; rfl
    rw [e3, Res.ok_bind]
    by_cases he : W.drop (W.length - 4) = checksum (W.take (W.length - 4))
    · have hc : check? W = some (W.take (W.length - 4)) := if_pos ⟨by omega, he⟩
      rw [show (checksum (W.take (W.length - 4)) == W.drop (W.length - 4)) = true by
        rw [he]; exact beq_self_eq_true _, if_pos rfl, hc]
      simp only [Res.pure_eq, List.length_take]
      rw [Nat.min_eq_left (by omega)]
    · have hc : check? W = none := if_neg (fun h => he h.2)
      have hf : (checksum (W.take (W.length - 4)) == W.drop (W.length - 4)) = false := by
        rw [beq_eq_false_iff_ne]; exact fun h => he h.symm
      rw [hf, hc]
      rfl

theorem fromBase58Check_eq (host : Host) (cs : Bool) (s post buf : List Byte) (h0 : ∀ b ∈ s, b ≠ 0#8)
    (h7 : cs = true → ∀ b ∈ s, b.toNat < 128) (hlen : s.length ≤ 2929669)
    (hb : ∀ W, Base58Spec.decode? s = some W → W.length ≤ buf.length) :
    fromBase58Check host cs (s ++ 0#8 :: post) s.length buf =
      match Base58Spec.decode? s with
      | none => .ok (buf, 0)
      | some W => .ok (over W buf, match check? W with | some p => p.length | none => 0) := by
  have h := C16_from_base58_any cs s post buf h0 h7 hlen hb
  rw [fromBase58Check]
  cases hd : Base58Spec.decode? s with
  | none =>
    rw [h.1 hd]
    rfl
  | some W =>
    rw [h.2 W hd]
    have hW := hb W hd
    have hWl := decode58_length_le s W hd
    have hts : ((s.dropWhile Base58Spec.isSpace).takeWhile (· = 49#8)).length ≤ s.length :=
      Nat.le_trans (List.takeWhile_sublist _).length_le (List.dropWhile_suffix _).length_le
    simp only [Res.ok_bind]
    exact checkTail_eq host buf W hW (by omega)

end Base58Check
