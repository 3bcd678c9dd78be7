import Verif.Props.Der
import Verif.Lemmas.BtcHash
import Verif.Spec.Bip32
/-! Derivation functions of `src/btc/key.c` against BIP 32. -/
namespace Key
open SecpLib Secp256k1 WordSpec Endian Bip32Spec

theorem assertNd_true (nd : Bool) : assertNd nd true = .ok () := by cases nd <;> rfl

theorem keyGetPub_eq (nd : Bool) (key : List Byte) (hv : ValidKey key) :
    ∃ x y, keyGetPub nd key = .ok (some (x, y)) ∧ pub (beNat key) = some (x, y) ∧ OnCurve (some (x, y)) := by
  obtain ⟨x, y, h1, h2, h3⟩ := pubkeyCreate_valid key hv
  refine ⟨x, y, ?_, h2, h3⟩
  rw [keyGetPub, h1, Res.ok_bind]
  simp only [assertNd_true, Res.ok_bind, Res.pure_eq]

theorem pubkeyEncode_eq (nd : Bool) (x y : Nat) (out : List Byte) (len : Nat) (c : Bool)
    (hc : len = if c then 33 else 65) (hl : len ≤ out.length) :
    pubkeyEncode nd (some (x, y)) out len =
      .ok (over (if c then compressed x y else uncompressed x y) out, true) := by
  have h1 : (len == 65 || len == 33) = true := by rw [hc]; cases c <;> rfl
  have h2 : ¬ (len ≠ 65 ∧ len ≠ 33) := by rw [hc]; cases c <;> simp
  have h3 : (len == 33) = c := by rw [hc]; cases c <;> rfl
  rw [pubkeyEncode, h1, assertNd_true, Res.ok_bind, if_neg h2, h3, serialize_eq out len x y c hc hl, Res.ok_bind]
  simp only [if_true, beq_self_eq_true, assertNd_true, Res.ok_bind, Res.pure_eq]

theorem pubkeyDecode33 (nd : Bool) (x y : Nat) (post : List Byte) (hon : OnCurve (some (x, y))) :
    pubkeyDecode nd (compressed x y ++ post) 33 = .ok (some (x, y), true) := by
  have hl := compressed_length x y
  rw [pubkeyDecode, show ((33:Nat) == 65 || (33:Nat) == 33) = true from rfl, assertNd_true, Res.ok_bind,
    if_neg (by simp)]
  exact (parse33_iff _ (by simp; omega) (x, y)).2 ⟨List.take_left' hl, hon⟩

theorem shift31 (i : U32) : (i >>> 31 = 0#32) ↔ i.toNat < 2 ^ 31 := by
  rw [← BitVec.toNat_inj, BitVec.toNat_ushiftRight, Nat.shiftRight_eq_div_pow]
  have := i.isLt
  simp only [BitVec.toNat_ofNat, Nat.zero_mod]
  omega

theorem bip32_length (c : List Byte) (h : Byte) (d : List Byte) (i : U32) :
    (BtcHashSpec.bip32 c h d i).length = 64 := Sha2.SHA512_length _

theorem deriveHash_eq (nd : Bool) (host : Host) (key chain : List Byte) (child : U32) (hv : ValidKey key)
    (hc : 32 ≤ chain.length) :
    deriveHash nd host key chain child = .ok (privI (beNat key) (chain.take 32) child, true) := by
  have hk := hv.1
  rw [deriveHash]
  simp only []
  by_cases h : child >>> 31 = 0#32
  · obtain ⟨x, y, h1, h2, h3⟩ := keyGetPub_eq nd key hv
    have hcl := compressed_length x y
    rw [if_pos h, h1, Res.ok_bind, pubkeyEncode_eq nd x y _ 33 true rfl (by simp), Res.ok_bind]
    simp only [if_true]
    have ho : over (compressed x y) (List.replicate 33 0xAA#8) = compressed x y := by
      rw [over, hcl]; simp
    rw [ho, show rd (compressed x y) 0 = .ok (if y % 2 = 0 then 0x02#8 else 0x03#8) from rfl, Res.ok_bind,
      BtcHash.bip32_hash_eq host chain child _ _ _ hc (by rw [List.length_drop]; omega) (by simp), Res.ok_bind]
    rw [privI, if_neg (show ¬ 2 ^ 31 ≤ child.toNat by have := (shift31 child).1 h; omega)]
    rw [show mul (beNat key) G = some (x, y) from h2]
    have e : ((compressed x y).drop 1).take 32 = beBytes 32 x := by
      rw [compressed, List.drop_succ_cons, List.drop_zero, List.take_of_length_le (by rw [beBytes_length])]
    rw [e, over, bip32_length]
    simp only [List.drop_replicate, Nat.sub_self, List.replicate_zero, List.append_nil, Res.pure_eq]
    rfl
  · rw [if_neg h, BtcHash.bip32_hash_eq host chain child _ _ _ hc (by omega) (by simp), Res.ok_bind, privI,
      if_pos (by have := (shift31 child).not.1 h; omega), List.take_of_length_le (l := key) (by omega), over, bip32_length]
    simp only [List.drop_replicate, Nat.sub_self, List.replicate_zero, List.append_nil, Res.pure_eq]
    rw [ser256, beBytes_beNat_of_length key 32 hk]
    rfl

theorem privI_length (k : Nat) (c : List Byte) (i : U32) : (privI k c i).length = 64 := by
  rw [privI]; split <;> exact Sha2.SHA512_length _

theorem pubI_length (K : Pt) (c : List Byte) (i : U32) : (pubI K c i).length = 64 := Sha2.SHA512_length _

theorem get32_take (l : List Byte) (h : 32 ≤ l.length) : get32 l 0 = .ok (beNat (l.take 32)) := by
  rw [get32, if_pos (by omega)]; rfl

theorem memcpy0 (out src : List Byte) (k : Nat) (hs : k ≤ src.length) (ho : k ≤ out.length) :
    memcpy out 0 src k = .ok (over (src.take k) out) := by
  have := memcpy_over [] out src 0 k rfl hs (by rw [List.length_nil]; omega)
  simpa using this

theorem over_over (A B out : List Byte) (h : A.length = B.length) : over A (over B out) = over A out := by
  rw [over, over, over, h, List.drop_left]

theorem keyDerive_eq (nd : Bool) (host : Host) (key chain outKey outChain : List Byte) (child : U32) (hv : ValidKey key)
    (hc : 32 ≤ chain.length) (ho : 32 ≤ outKey.length) (ho' : 32 ≤ outChain.length) :
    keyDerive nd host key chain outKey outChain child = .ok
      (match ckdPriv (beNat key) (chain.take 32) child with
      | some (k, c) => ⟨true, over (ser256 k) outKey, over c outChain⟩
      | none => ⟨false, over (List.replicate 32 0#8) outKey,
          over ((privI (beNat key) (chain.take 32) child).drop 32) outChain⟩) := by
  have hk := hv.1
  have hI := privI_length (beNat key) (chain.take 32) child
  rw [keyDerive, deriveHash_eq nd host key chain child hv hc, Res.ok_bind]
  simp only [if_true]
  rw [memcpy0 _ _ _ (by omega) ho, Res.ok_bind, memcpy0 _ _ _ (by rw [List.length_drop]; omega) ho', Res.ok_bind,
    List.take_of_length_le (l := key) (by omega)]
  rw [ckdPriv]
  obtain ⟨I, hIe⟩ : ∃ I, I = privI (beNat key) (chain.take 32) child := ⟨_, rfl⟩
  rw [← hIe] at hI ⊢
  have hov : (over key outKey).length = outKey.length := over_length _ _ (by omega)
  have htk : (over key outKey).take 32 = key := by rw [over, List.take_left' hk]
  rw [privkeyTweakAdd, get32_take _ (by omega), htk, Res.ok_bind, get32_take I (by omega), Res.ok_bind, parse256,
    List.take_of_length_le (l := I.drop 32) (by rw [List.length_drop]; omega), Nat.add_comm (beNat (I.take 32))]
  simp only []
  by_cases h : n ≤ beNat (I.take 32) ∨ (beNat key + beNat (I.take 32)) % n = 0
  · rw [if_pos h, if_neg (by rintro ⟨a, b⟩; rcases h with h | h; omega; exact b h), memset_all _ _ _ (by omega), Res.ok_bind]
    simp only [Res.ok_bind, Res.pure_eq]
    rw [show (over key outKey).drop 32 = outKey.drop 32 by rw [over, hk, List.drop_left' hk]]
    rw [show over (List.replicate 32 0#8) outKey = List.replicate 32 0#8 ++ outKey.drop 32 by
      rw [over, List.length_replicate]]
  · rw [if_neg h, if_pos (by rw [not_or] at h; exact ⟨by omega, h.2⟩),
      memcpy0 _ _ _ (by rw [beBytes_length]) (by omega), Res.ok_bind,
      List.take_of_length_le (l := beBytes 32 _) (by rw [beBytes_length]), over_over _ _ _ (by rw [beBytes_length, hk])]
    rfl

theorem pubkeyDerive_eq' (nd : Bool) (host : Host) (x y : Nat) (post chain outPub outChain : List Byte) (child : U32)
    (hon : OnCurve (some (x, y))) (ha : assertNd nd (child >>> 31 == 0#32) = .ok ())
    (hc : 32 ≤ chain.length) (ho : 33 ≤ outPub.length) (ho' : 32 ≤ outChain.length) :
    pubkeyDerive nd host (compressed x y ++ post) chain outPub outChain child = .ok
      (match ckdPub (some (x, y)) (chain.take 32) child with
      | some (K, c) => ⟨true, over (serP K) outPub, over c outChain⟩
      | none => ⟨false, outPub, over ((pubI (some (x, y)) (chain.take 32) child).drop 32) outChain⟩) := by
  have hcl := compressed_length x y
  have hI := pubI_length (some (x, y)) (chain.take 32) child
  rw [pubkeyDerive, ha,
    Res.ok_bind, show rd (compressed x y ++ post) 0 = .ok (if y % 2 = 0 then 0x02#8 else 0x03#8) from rfl, Res.ok_bind,
    show ((if y % 2 = 0 then 0x02#8 else 0x03#8) == 2#8 || (if y % 2 = 0 then 0x02#8 else 0x03#8) == 3#8) = true by
      by_cases hy : y % 2 = 0 <;> simp [hy], assertNd_true, Res.ok_bind]
  simp only []
  rw [pubkeyDecode33 nd x y post hon, Res.ok_bind]
  simp only [Bool.not_true, Bool.false_eq_true, if_false]
  rw [BtcHash.bip32_hash_eq host chain child _ _ _ hc (by simp; omega) (by simp), Res.ok_bind]
  have e : ((compressed x y ++ post).drop 1).take 32 = beBytes 32 x := by
    rw [compressed, List.cons_append, List.drop_succ_cons, List.drop_zero, List.take_left' (beBytes_length _ _)]
  have e2 : over (BtcHashSpec.bip32 (chain.take 32) (if y % 2 = 0 then 0x02#8 else 0x03#8)
      (((compressed x y ++ post).drop 1).take 32) child) (List.replicate 64 0xAA#8) =
      pubI (some (x, y)) (chain.take 32) child := by
    rw [e, over, bip32_length]
    simp only [List.drop_replicate, Nat.sub_self, List.replicate_zero, List.append_nil]
    rfl
  rw [e2]
  rw [ckdPub]
  obtain ⟨I, hIe⟩ : ∃ I, I = pubI (some (x, y)) (chain.take 32) child := ⟨_, rfl⟩
  rw [← hIe] at hI ⊢
  rw [memcpy0 _ _ _ (by rw [List.length_drop]; omega) ho', Res.ok_bind,
    List.take_of_length_le (l := I.drop 32) (by rw [List.length_drop]; omega)]
  have hpp := pubkeyDecode33 nd x y post hon
  rw [pubkeyDecode, show ((33:Nat) == 65 || (33:Nat) == 33) = true from rfl, assertNd_true, Res.ok_bind,
    if_neg (by simp)] at hpp
  rw [hpp, Res.ok_bind]
  simp only [Bool.not_true, Bool.false_eq_true, if_false]
  rw [pubkeyTweakAdd, get32_take I (by omega), Res.ok_bind, parse256]
  have hlt : beNat (I.take 32) < 2 ^ 256 := by
    have := beNat_lt_pow (I.take 32)
    rw [List.length_take, hI] at this
    norm_num at this ⊢
    exact this
  have hG := mul_spec hlt G_onCurve
  have hcomm : add (some (x, y)) (mul (beNat (I.take 32)) G) = add (mul (beNat (I.take 32)) G) (some (x, y)) := by
    have a := add_spec hon hG.1
    have b := add_spec hG.1 hon
    exact toPoint_inj a.1 b.1 (by rw [a.2, b.2, add_comm])
  rw [hcomm]
  by_cases hn : beNat (I.take 32) < n
  swap
  · rw [if_neg hn, if_pos (.inl (by omega))]; rfl
  rw [if_pos hn]
  cases hs : add (mul (beNat (I.take 32)) G) (some (x, y)) with
  | none => rw [if_pos (.inr rfl)]; rfl
  | some Q =>
    obtain ⟨qx, qy⟩ := Q
    rw [if_neg (by simp; exact hn)]
    simp only [Res.pure_eq, Res.ok_bind, Bool.not_true, Bool.false_eq_true, if_false]
    rw [pubkeyEncode_eq nd qx qy outPub 33 true rfl ho]
    rfl

theorem pubkeyDerive_eq (nd : Bool) (host : Host) (x y : Nat) (post chain outPub outChain : List Byte) (child : U32)
    (hon : OnCurve (some (x, y))) (hi : child.toNat < 2 ^ 31)
    (hc : 32 ≤ chain.length) (ho : 33 ≤ outPub.length) (ho' : 32 ≤ outChain.length) :
    pubkeyDerive nd host (compressed x y ++ post) chain outPub outChain child = .ok
      (match ckdPub (some (x, y)) (chain.take 32) child with
      | some (K, c) => ⟨true, over (serP K) outPub, over c outChain⟩
      | none => ⟨false, outPub, over ((pubI (some (x, y)) (chain.take 32) child).drop 32) outChain⟩) := by
  exact pubkeyDerive_eq' nd host x y post chain outPub outChain child hon
    (by rw [show (child >>> 31 == 0#32) = true from beq_iff_eq.2 ((shift31 child).2 hi)]; exact assertNd_true nd) hc ho ho'

end Key
