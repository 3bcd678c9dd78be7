import Verif.Model.Exkey
import Verif.Lemmas.Bip32
/-! Serialisation of extended keys, `src/btc/exkey.c`. -/
namespace Exkey
open Endian WordSpec Bip32Spec Key

theorem over_all {W out : List Byte} (h : W.length = out.length) : over W out = W := by
  rw [over, h]; simp

theorem writeLittle32_over (host : Host) (W out : List Byte) (off : Nat) (v : U32) (ho : off = W.length)
    (h : W.length + 4 ≤ out.length) :
    writeLittle32 host (over W out) off v = .ok (over (W ++ leBytes 4 v.toNat) out) := by
  rw [writeLittle32, store32, memcpy_over _ _ _ _ _ ho (by rw [bytes32_length]) h,
    List.take_of_length_le (by rw [bytes32_length]), bytes32_htole32]

theorem writeBig32_over (host : Host) (W out : List Byte) (off : Nat) (v : U32) (ho : off = W.length)
    (h : W.length + 4 ≤ out.length) :
    writeBig32 host (over W out) off v = .ok (over (W ++ beBytes 4 v.toNat) out) := by
  rw [writeBig32, store32, memcpy_over _ _ _ _ _ ho (by rw [bytes32_length]) h,
    List.take_of_length_le (by rw [bytes32_length]), bytes32_htobe32]

/-- The first 41 bytes. -/
def extBytes (e : Ext) : List Byte :=
  [e.depth] ++ leBytes 4 e.fingerprint.toNat ++ ser32 e.child ++ e.chainCode.take 32

theorem extBytes_length (e : Ext) (h : 32 ≤ e.chainCode.length) : (extBytes e).length = 41 := by
  simp [extBytes, ser32, leBytes_length, beBytes_length, h]

theorem writeKeyExtension_eq (host : Host) (e : Ext) (code : List Byte) (hc : 32 ≤ e.chainCode.length)
    (hl : 41 ≤ code.length) : writeKeyExtension host e code = .ok (over (extBytes e) code) := by
  have h0 := wr_over [] code e.depth 0 rfl (by rw [List.length_nil]; omega)
  rw [over_nil, List.nil_append] at h0
  rw [writeKeyExtension, h0, Res.ok_bind, writeLittle32_over host _ _ 1 _ (by rfl) (by rw [List.length_singleton]; omega),
    Res.ok_bind, writeBig32_over host _ _ _ _ (by simp [leBytes_length]) (by simp [leBytes_length]; omega), Res.ok_bind,
    memcpy_over _ _ _ _ _ (by simp [leBytes_length, beBytes_length]) hc (by simp [leBytes_length, beBytes_length]; omega)]
  rfl

theorem exkeyEncode_eq (host : Host) (k : ExKey) (code : List Byte) (hc : 32 ≤ k.ext.chainCode.length)
    (hk : 32 ≤ k.key.length) (hl : 74 ≤ code.length) :
    exkeyEncode host k code = .ok (over (extBytes k.ext ++ [0#8] ++ k.key.take 32) code) := by
  have hx := extBytes_length k.ext hc
  rw [exkeyEncode, writeKeyExtension_eq host _ _ hc (by omega), Res.ok_bind, wr_over _ _ _ _ hx.symm (by omega), Res.ok_bind,
    memcpy_over _ _ _ _ _ (by simp [hx]) hk (by simp [hx]; omega)]

theorem expubkeyEncode_eq (host : Host) (k : ExPubkey) (code : List Byte) (hc : 32 ≤ k.ext.chainCode.length)
    (hk : 33 ≤ k.pubkey.length) (hl : 74 ≤ code.length) :
    expubkeyEncode host k code = .ok (over (extBytes k.ext ++ k.pubkey.take 33) code) := by
  have hx := extBytes_length k.ext hc
  rw [expubkeyEncode, writeKeyExtension_eq host _ _ hc (by omega), Res.ok_bind,
    memcpy_over _ _ _ _ _ hx.symm hk (by simp [hx]; omega)]

/-- What `read_key_extension` makes of 41 bytes. -/
def extOf (code : List Byte) : Ext :=
  ⟨code.headD 0#8, BitVec.ofNat 32 (leNat ((code.drop 1).take 4)), BitVec.ofNat 32 (beNat ((code.drop 5).take 4)),
    (code.drop 9).take 32⟩

theorem readKeyExtension_eq (host : Host) (code : List Byte) (e : Ext) (h : 41 ≤ code.length) (hc : e.chainCode.length = 32) :
    readKeyExtension host code e = .ok (extOf code) := by
  rw [readKeyExtension, rd_ok code 0 (by omega), Res.ok_bind, readLittle32_eq host code 1 (by omega), Res.ok_bind,
    readBig32_eq host code 5 (by omega), Res.ok_bind, memcpy0 _ _ _ (by rw [List.length_drop]; omega) (by omega), Res.ok_bind,
    over_all (by rw [List.length_take, List.length_drop, hc]; omega), ← leNat_reverse]
  cases code with
  | nil => simp at h
  | cons a t => rfl

theorem leNat_leBytes4 (f : U32) : leNat (leBytes 4 f.toNat) = f.toNat := by
  rw [leNat_reverse]
  have : (leBytes 4 f.toNat).reverse = beBytes 4 f.toNat := rfl
  rw [this, beNat_beBytes_lt _ _ (by have := f.isLt; omega)]

theorem leBytes4_leNat (a : List Byte) (h : a.length = 4) : leBytes 4 (leNat a) = a := by
  rw [leNat_reverse]
  have e : ∀ v, leBytes 4 v = (beBytes 4 v).reverse := fun v => rfl
  rw [e, beBytes_beNat_of_length _ 4 (by simp [h]), List.reverse_reverse]

theorem extBytes_cons (d : Byte) (f c : U32) (ch t : List Byte) (hc : ch.length = 32) :
    extBytes ⟨d, f, c, ch⟩ ++ t = d :: (leBytes 4 f.toNat ++ (beBytes 4 c.toNat ++ (ch ++ t))) := by
  simp only [extBytes]
  rw [List.take_of_length_le (l := ch) (by omega)]
  simp only [List.append_assoc, List.singleton_append, ser32]; rfl

theorem extOf_extBytes (e : Ext) (t : List Byte) (hc : e.chainCode.length = 32) : extOf (extBytes e ++ t) = e := by
  have l1 := leBytes_length 4 e.fingerprint.toNat
  have l2 := beBytes_length 4 e.child.toNat
  obtain ⟨d, f, c, ch⟩ := e
  rw [extBytes_cons d f c ch t hc]
  have d1 : ((d :: (leBytes 4 f.toNat ++ (beBytes 4 c.toNat ++ (ch ++ t)))).drop 1).take 4 = leBytes 4 f.toNat := by
    rw [List.drop_succ_cons, List.drop_zero, List.take_left' l1]
  have d2 : ((d :: (leBytes 4 f.toNat ++ (beBytes 4 c.toNat ++ (ch ++ t)))).drop 5).take 4 = beBytes 4 c.toNat := by
    rw [List.drop_succ_cons, List.drop_left' l1, List.take_left' l2]
  have d3 : ((d :: (leBytes 4 f.toNat ++ (beBytes 4 c.toNat ++ (ch ++ t)))).drop 9).take 32 = ch := by
    rw [List.drop_succ_cons, ← List.drop_drop (i := 4) (j := 4), List.drop_left' l1, List.drop_left' l2, List.take_left' hc]
  rw [extOf, Ext.mk.injEq]
  refine ⟨rfl, ?_, ?_, d3⟩
  · rw [d1, leNat_leBytes4]; simp
  · rw [d2, beNat_beBytes_lt _ _ (by have := c.isLt; omega)]; simp

theorem extBytes_extOf (code : List Byte) (h : 41 ≤ code.length) : extBytes (extOf code) = code.take 41 := by
  cases code with
  | nil => simp at h
  | cons a t =>
    rw [List.length_cons] at h
    have l1 : (t.take 4).length = 4 := by rw [List.length_take]; omega
    have l2 : ((t.drop 4).take 4).length = 4 := by rw [List.length_take, List.length_drop]; omega
    have l3 : ((t.drop 8).take 32).length = 32 := by rw [List.length_take, List.length_drop]; omega
    have b1 : leNat (t.take 4) < 2 ^ 32 := by
      rw [leNat_reverse]; have := Endian.beNat_lt (t.take 4).reverse; rw [List.length_reverse, l1] at this; exact this
    have b2 : beNat ((t.drop 4).take 4) < 2 ^ 32 := by
      have := Endian.beNat_lt ((t.drop 4).take 4); rw [l2] at this; exact this
    have := extBytes_cons a (BitVec.ofNat 32 (leNat (t.take 4))) (BitVec.ofNat 32 (beNat ((t.drop 4).take 4))) ((t.drop 8).take 32) [] l3
    rw [List.append_nil, List.append_nil] at this
    rw [BitVec.toNat_ofNat, BitVec.toNat_ofNat, Nat.mod_eq_of_lt b1, Nat.mod_eq_of_lt b2, leBytes4_leNat _ l1,
      beBytes_beNat_of_length _ 4 l2] at this
    refine (show extBytes (extOf (a :: t)) = _ from this).trans ?_
    rw [List.take_succ_cons]
    refine congrArg (a :: ·) ?_
    rw [show 40 = 4 + (4 + 32) from rfl, List.take_add, List.take_add, List.drop_drop]

theorem exkeyDecode_eq (host : Host) (code : List Byte) (k : ExKey) (h : 74 ≤ code.length) (hc : k.ext.chainCode.length = 32)
    (hk : k.key.length = 32) : exkeyDecode host code k = .ok ⟨extOf code, (code.drop 42).take 32⟩ := by
  rw [exkeyDecode, readKeyExtension_eq host code _ (by omega) hc, Res.ok_bind,
    memcpy0 _ _ _ (by rw [List.length_drop]; omega) (by omega), Res.ok_bind,
    over_all (by rw [List.length_take, List.length_drop, hk]; omega)]
  rfl

theorem expubkeyDecode_eq (host : Host) (code : List Byte) (k : ExPubkey) (h : 74 ≤ code.length)
    (hc : k.ext.chainCode.length = 32) (hk : k.pubkey.length = 33) :
    expubkeyDecode host code k = .ok ⟨extOf code, (code.drop 41).take 33⟩ := by
  rw [expubkeyDecode, readKeyExtension_eq host code _ (by omega) hc, Res.ok_bind,
    memcpy0 _ _ _ (by rw [List.length_drop]; omega) (by omega), Res.ok_bind,
    over_all (by rw [List.length_take, List.length_drop, hk]; omega)]
  rfl

end Exkey
