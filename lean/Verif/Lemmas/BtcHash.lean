import Verif.Model.BtcHash
import Verif.Spec.BtcHash
import Verif.Lemmas.Sha2D64
import Verif.Lemmas.Ripemd160

namespace BtcHash
open Endian Sha2Spec WordSpec

theorem take_over {α : Type} {W mem : List α} {n : Nat} (h : W.length = n) : (over W mem).take n = W := by
  rw [over, List.take_left' h]

theorem hash160_eq (host : Host) (msg : List Byte) (n : Nat) (hash : List Byte)
    (hn : n ≤ msg.length) (hlen : n < 2^61) (hh : 20 ≤ hash.length) :
    hash160 host msg n hash = .ok (over (BtcHashSpec.hash160 (msg.take n)) hash) := by
  have hl := Sha2.SHA256_length (msg.take n)
  rw [hash160]
  rw [Sha2.sha2_256_eq host msg n _ hn hlen (by simp)]
  simp only [Res.ok_bind]
  rw [Ripemd160.ripemd160_eq host _ 32 hash (by rw [over_length _ _ (by simp [hl])]; simp)
    (by omega) hh, take_over hl]
  rfl

theorem hash256_eq (host : Host) (msg : List Byte) (n : Nat) (hash : List Byte)
    (hn : n ≤ msg.length) (hlen : n < 2^61) (hh : 32 ≤ hash.length) :
    hash256 host msg n hash = .ok (over (BtcHashSpec.hash256 (msg.take n)) hash) := by
  have hl := Sha2.SHA256_length (msg.take n)
  rw [hash256]
  rw [Sha2.sha2_256_eq host msg n _ hn hlen (by simp)]
  simp only [Res.ok_bind]
  rw [Sha2.sha2_256_eq host _ 32 hash (by rw [over_length _ _ (by simp [hl])]; simp)
    (by omega) hh, take_over hl]
  rfl

theorem hash256_length (m : List Byte) : (BtcHashSpec.hash256 m).length = 32 := Sha2.SHA256_length _
theorem hash160_length (m : List Byte) : (BtcHashSpec.hash160 m).length = 20 :=
  Ripemd160.RIPEMD160_length _

/-- The digests of the first `k` 64-byte blocks. -/
def digests (inp : List Byte) (k : Nat) : List Byte :=
  (List.range k).flatMap fun i => BtcHashSpec.hash256 ((inp.drop (64 * i)).take 64)

theorem digests_succ (inp : List Byte) (k : Nat) :
    digests inp (k+1) = digests inp k ++ BtcHashSpec.hash256 ((inp.drop (64 * k)).take 64) := by
  simp [digests, List.range_succ]

theorem digests_length (inp : List Byte) (k : Nat) : (digests inp k).length = 32 * k := by
  induction k with
  | zero => rfl
  | succ k ih => rw [digests_succ, List.length_append, ih, hash256_length]; omega

theorem hash256_d64_eq (host : Host) (out inp : List Byte) (blocks : Nat)
    (ho : 32 * blocks ≤ out.length) (hi : 64 * blocks ≤ inp.length) :
    hash256_d64 host out inp blocks = .ok (over (digests inp blocks) out) := by
  rw [hash256_d64]
  have := forLoop_eq (fun i out => do
    let o ← Sha2.d64Transform host (out.drop (32 * i)) (inp.drop (64 * i))
    pure (out.take (32 * i) ++ o)) (fun i => over (digests inp i) out) blocks 0 (by
      intro j _ hj
      have hl := digests_length inp j
      rw [Sha2.d64Transform_eq host _ _ (by
        rw [List.length_drop, over_length _ _ (by omega)]; omega) (by rw [List.length_drop]; omega)]
      simp only [Res.ok_bind, Res.pure_eq]
      congr 1
      rw [digests_succ]
      simp only [over]
      rw [List.take_left' hl, List.drop_left' hl, List.length_append, hl, List.drop_drop,
        List.append_assoc]
      rfl)
  rw [show digests inp 0 = [] from rfl, over_nil, Nat.zero_add] at this
  exact this

theorem hash256_d64InPlace_eq (host : Host) (mem : List Byte) (blocks : Nat)
    (hi : 64 * blocks ≤ mem.length) :
    hash256_d64InPlace host mem blocks = .ok (over (digests mem blocks) mem) := by
  rw [hash256_d64InPlace]
  have := forLoop_eq (fun i mem => do
    let o ← Sha2.d64Transform host (mem.drop (32 * i)) (mem.drop (64 * i))
    pure (mem.take (32 * i) ++ o)) (fun i => over (digests mem i) mem) blocks 0 (by
      intro j _ hj
      have hl := digests_length mem j
      rw [Sha2.d64Transform_eq host _ _ (by
        rw [List.length_drop, over_length _ _ (by omega)]; omega) (by
        rw [List.length_drop, over_length _ _ (by omega)]; omega)]
      simp only [Res.ok_bind, Res.pure_eq]
      congr 1
      rw [digests_succ]
      have hd : (over (digests mem j) mem).drop (64 * j) = mem.drop (64 * j) := by
        rw [over, hl, show 64 * j = 32 * j + 32 * j by omega, ← List.drop_drop, List.drop_left' hl,
          List.drop_drop]
      rw [hd]
      simp only [over]
      rw [List.take_left' hl, List.drop_left' hl, List.length_append, hl, List.drop_drop,
        List.append_assoc]
      rfl)
  rw [show digests mem 0 = [] from rfl, over_nil, Nat.zero_add] at this
  exact this

theorem bip32_hash_eq (host : Host) (chain : List Byte) (child : U32) (header : Byte)
    (data out : List Byte) (hc : 32 ≤ chain.length) (hd : 32 ≤ data.length) (ho : 64 ≤ out.length) :
    bip32_hash host chain child header data out =
      .ok (over (BtcHashSpec.bip32 (chain.take 32) header (data.take 32) child) out) := by
  have hdl : (data.take 32).length = 32 := by rw [List.length_take]; omega
  rw [bip32_hash]
  have e0 : (List.replicate 37 0xAA#8 : List Byte) = over [] (List.replicate 37 0xAA#8) := by simp
  rw [e0, memcpy_over [] _ _ 0 1 rfl (by simp) (by simp)]
  simp only [Res.ok_bind]
  rw [memcpy_over _ _ data 1 32 (by simp) hd (by simp)]
  simp only [Res.ok_bind]
  rw [writeBig32, store32, memcpy_over _ _ _ 33 4 (by simp [hdl]) (by rw [bytes32_length]; omega)
    (by simp [hdl])]
  simp only [Res.ok_bind]
  rw [List.take_of_length_le (l := bytes32 _ _) (by rw [bytes32_length]; omega), bytes32_htobe32]
  simp only [List.nil_append, List.take_succ_cons, List.take_zero]
  have hl : ([header] ++ data.take 32 ++ beBytes 4 child.toNat).length = 37 := by
    simp [hdl, beBytes_length]
  rw [Sha2.hmac_sha512_eq host chain 32 _ 37 out hc (by omega)
    (by rw [over_length _ _ (by rw [hl]; simp)]; simp) (by omega) ho, take_over hl]
  rfl

end BtcHash
