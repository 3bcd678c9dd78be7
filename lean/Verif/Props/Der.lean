import Verif.Lemmas.Der
import Verif.Lemmas.Sec1
/-! Property theorems C47 to C50 (DER, `src/btc/key.c`). -/
open Key SecpLib DerSpec Secp256k1 WordSpec Endian

namespace Key

theorem serialize_eq (out : List Byte) (len x y : Nat) (c : Bool) (hc : len = if c then 33 else 65)
    (hl : len ≤ out.length) :
    pubkeySerialize out len (some (x, y)) c =
      .ok (over (if c then compressed x y else uncompressed x y) out, len, true) := by
  have he : (if c then compressed x y else uncompressed x y).length = len := by
    rw [hc]; cases c <;> simp [compressed_length, uncompressed_length]
  rw [pubkeySerialize, if_neg (by omega)]
  simp only []
  rw [memset_all _ _ _ hl, Res.ok_bind, he, memcpy_ok _ _ _ _ (by omega) (by simp), Res.ok_bind, over, he]
  simp only [Res.pure_eq, List.take_zero, List.nil_append, Nat.zero_add]
  rw [List.take_of_length_le (by omega), List.drop_left' (by simp)]

theorem export_ok (nd : Bool) (key out begin middle : List Byte) (x y len total : Nat) (c : Bool) (hk : key.length = 32)
    (hc : len = if c then 33 else 65) (ht : total = begin.length + 32 + middle.length + len) (ho : total ≤ out.length) :
    exportWrite nd out key begin middle (some (x, y)) len total c =
      .ok (over (begin ++ key ++ middle ++ (if c then compressed x y else uncompressed x y)) out, total, true) := by
  have he : (if c then compressed x y else uncompressed x y).length = len := by
    rw [hc]; cases c <;> simp [compressed_length, uncompressed_length]
  obtain ⟨e, hee⟩ : ∃ e, e = if c then compressed x y else uncompressed x y := ⟨_, rfl⟩
  have h1 : memcpy out 0 begin begin.length = .ok (over begin out) := by
    have := memcpy_over [] out begin 0 begin.length rfl (by omega) (by rw [List.length_nil]; omega)
    simpa using this
  have h2 : memcpy (over begin out) begin.length key 32 = .ok (over (begin ++ key) out) := by
    have := memcpy_over begin out key begin.length 32 rfl (by omega) (by omega)
    rwa [List.take_of_length_le (by omega)] at this
  have h3 : memcpy (over (begin ++ key) out) (begin.length + 32) middle middle.length =
      .ok (over (begin ++ key ++ middle) out) := by
    have := memcpy_over (begin ++ key) out middle (begin.length + 32) middle.length (by simp [hk])
      (by omega) (by rw [List.length_append]; omega)
    rwa [List.take_of_length_le (by omega)] at this
  have hbl : (begin ++ key ++ middle).length = begin.length + 32 + middle.length := by simp [hk]; omega
  rw [exportWrite, h1, Res.ok_bind, h2, Res.ok_bind, h3, Res.ok_bind]
  simp only []
  have hd : (over (begin ++ key ++ middle) out).drop (begin.length + 32 + middle.length) =
      out.drop (begin.length + 32 + middle.length) := by
    rw [over, List.drop_left' hbl, hbl]
  rw [hd, serialize_eq _ len x y c hc (by rw [List.length_drop]; omega), Res.ok_bind]
  simp only []
  rw [show assertNd nd (begin.length + 32 + middle.length + len == total) = .ok () by
    rw [ht]; cases nd <;> simp [assertNd, assertC], Res.ok_bind, ← ht, ← hee]
  have : (over (begin ++ key ++ middle) out).take (begin.length + 32 + middle.length) ++
      over e (out.drop (begin.length + 32 + middle.length)) = over (begin ++ key ++ middle ++ e) out := by
    rw [over, List.take_left' hbl, over, over, List.drop_drop, List.length_append, hbl, List.append_assoc]
    simp
  rw [this]; rfl

theorem params_compressed : middleCompressed ++ [] = tlv 0xA0#8 (parameters (point true G)) ++ [0xA1#8, 0x24#8, 0x03#8, 0x22#8, 0x00#8] := by
  decide +kernel

theorem params_uncompressed : middleUncompressed ++ [] =
    tlv 0xA0#8 (parameters (point false G)) ++ [0xA1#8, 0x44#8, 0x03#8, 0x42#8, 0x00#8] := by
  decide +kernel

theorem tlv_short (t : Byte) (c : List Byte) (h : c.length < 128) : tlv t c = t :: BitVec.ofNat 8 c.length :: c := by
  rw [tlv, if_pos h]; rfl

theorem ecPrivateKey_compressed (key : List Byte) (hk : key.length = 32) (x y : Nat) (hp : pub (beNat key) = some (x, y)) :
    ecPrivateKey key true = beginCompressed ++ key ++ middleCompressed ++ compressed x y := by
  have e1 : tlv 0xA1#8 (tlv 0x03#8 (0#8 :: point true (pub (beNat key)))) =
      [0xA1#8, 0x24#8, 0x03#8, 0x22#8, 0x00#8] ++ compressed x y := by
    rw [hp]
    have := compressed_length x y
    rw [point]; simp only [if_true]
    rw [tlv_short 0x03#8 _ (by simp; omega), tlv_short _ _ (by simp; omega)]
    simp only [List.length_cons, this]
    rfl
  have e2 : uint 1 ++ tlv 0x04#8 key = [0x02#8, 0x01#8, 0x01#8, 0x04#8, 0x20#8] ++ key := by
    rw [tlv_short _ _ (by omega), hk, show uint 1 = [0x02#8, 0x01#8, 0x01#8] by decide +kernel]; rfl
  have e3 := params_compressed
  rw [List.append_nil] at e3
  rw [ecPrivateKey, e1, e2, ← List.append_assoc, List.append_assoc ([_, _, _, _, _] ++ key), ← e3, tlv]
  have hl : ([0x02#8, 0x01#8, 0x01#8, 0x04#8, 0x20#8] ++ key ++ middleCompressed ++ compressed x y).length = 211 := by
    have : middleCompressed.length = 141 := by decide +kernel
    simp [hk, compressed_length, this]
  rw [hl]
  simp [beginCompressed]

theorem ecPrivateKey_uncompressed (key : List Byte) (hk : key.length = 32) (x y : Nat) (hp : pub (beNat key) = some (x, y)) :
    ecPrivateKey key false = beginUncompressed ++ key ++ middleUncompressed ++ uncompressed x y := by
  have e1 : tlv 0xA1#8 (tlv 0x03#8 (0#8 :: point false (pub (beNat key)))) =
      [0xA1#8, 0x44#8, 0x03#8, 0x42#8, 0x00#8] ++ uncompressed x y := by
    rw [hp]
    have := uncompressed_length x y
    rw [point]; simp only [Bool.false_eq_true, if_false]
    rw [tlv_short 0x03#8 _ (by simp; omega), tlv_short _ _ (by simp; omega)]
    simp only [List.length_cons, this]
    rfl
  have e2 : uint 1 ++ tlv 0x04#8 key = [0x02#8, 0x01#8, 0x01#8, 0x04#8, 0x20#8] ++ key := by
    rw [tlv_short _ _ (by omega), hk, show uint 1 = [0x02#8, 0x01#8, 0x01#8] by decide +kernel]; rfl
  have e3 := params_uncompressed
  rw [List.append_nil] at e3
  rw [ecPrivateKey, e1, e2, ← List.append_assoc, List.append_assoc ([_, _, _, _, _] ++ key), ← e3, tlv]
  have hl : ([0x02#8, 0x01#8, 0x01#8, 0x04#8, 0x20#8] ++ key ++ middleUncompressed ++ uncompressed x y).length = 275 := by
    have : middleUncompressed.length = 173 := by decide +kernel
    simp [hk, uncompressed_length, this]
  rw [hl]
  simp [beginUncompressed]

theorem pubkeyCreate_valid (key : List Byte) (hv : ValidKey key) :
    ∃ x y, pubkeyCreate key = .ok (some (x, y), true) ∧ pub (beNat key) = some (x, y) ∧ OnCurve (some (x, y)) := by
  obtain ⟨hk, h0, hn⟩ := hv
  obtain ⟨x, y, h1, h2⟩ := pub_some h0 hn
  refine ⟨x, y, ?_, h1, h2⟩
  have := get32_left key [] hk
  rw [List.append_nil] at this
  rw [pubkeyCreate, this, Res.ok_bind, if_pos ⟨h0, hn⟩, h1]; rfl

end Key

/-- C47 (what is written). For every valid key, `fingera_btc_key_encode` writes the DER encoding of the SEC 1
structure `ECPrivateKey`: 279 bytes with the uncompressed, 214 with the compressed public key. -/
theorem C47_key_encode (nd : Bool) (key out : List Byte) (compr : Bool) (hv : ValidKey key)
    (ho : (if compr then 214 else 279) ≤ out.length) :
    (ecPrivateKey key compr).length = (if compr then 214 else 279) ∧
    keyEncode nd key out (if compr then 214 else 279) = .ok (over (ecPrivateKey key compr) out, true) := by
  obtain ⟨x, y, h1, h2, h3⟩ := pubkeyCreate_valid key hv
  have hk := hv.1
  have l1 : middleCompressed.length = 141 := by decide +kernel
  have l2 : middleUncompressed.length = 173 := by decide +kernel
  have l3 : beginCompressed.length = 8 := by decide +kernel
  have l4 : beginUncompressed.length = 9 := by decide +kernel
  cases compr with
  | true =>
    simp only [if_true] at ho ⊢
    rw [ecPrivateKey_compressed key hk x y h2]
    refine ⟨by simp [l1, l3, hk, compressed_length], ?_⟩
    have he := export_ok nd key out beginCompressed middleCompressed x y 33 214 true hk rfl (by rw [l1, l3]) ho
    simp only [if_true] at he
    rw [keyEncode, show assertNd nd ((214:Nat) == 279 || (214:Nat) == 214) = .ok () by cases nd <;> rfl, Res.ok_bind,
      if_neg (by simp), exportDer, h1, Res.ok_bind]
    simp only [Bool.not_true, Bool.false_eq_true, if_false, beq_self_eq_true, if_true]
    rw [show assertNd nd (decide ((214:Nat) ≥ 214)) = .ok () by cases nd <;> rfl, Res.ok_bind, he, Res.ok_bind]
    simp only [if_true]
    cases nd <;> rfl
  | false =>
    simp only [Bool.false_eq_true, if_false] at ho ⊢
    rw [ecPrivateKey_uncompressed key hk x y h2]
    refine ⟨by simp [l2, l4, hk, uncompressed_length], ?_⟩
    have he := export_ok nd key out beginUncompressed middleUncompressed x y 65 279 false hk rfl (by rw [l2, l4]) ho
    simp only [Bool.false_eq_true, if_false] at he
    rw [keyEncode, show assertNd nd ((279:Nat) == 279 || (279:Nat) == 214) = .ok () by cases nd <;> rfl, Res.ok_bind,
      if_neg (by simp), exportDer, h1, Res.ok_bind, show ((279:Nat) == 214) = false from rfl]
    simp only [Bool.not_true, Bool.false_eq_true, if_false]
    rw [show assertNd nd (decide ((279:Nat) ≥ 279)) = .ok () by cases nd <;> rfl, Res.ok_bind, he, Res.ok_bind]
    simp only [if_true]
    cases nd <;> rfl

/-- C48 (exact behaviour). `fingera_btc_key_decode` reads exactly the grammar of `DerSpec.privateKey?` and stays
inside the input: it returns 1 with the key in `key32` if the key is valid, and 0 with 32 zero bytes
otherwise.  Bytes after `key32` are untouched. -/
theorem C48_key_decode_spec (enc key32 : List Byte) (hk : 32 ≤ key32.length) :
    keyDecode enc enc.length key32 = .ok (match privateKey? enc with
      | some k => if ValidKey k then (over k key32, true) else (over (List.replicate 32 0#8) key32, false)
      | none => (over (List.replicate 32 0#8) key32, false)) := by
  rw [keyDecode, importDer_eq enc key32 hk]
  cases hp : privateKey? enc with
  | none => simp [over]
  | some k =>
    simp only []
    by_cases hv : ValidKey k
    · rw [if_pos hv, if_pos hv, over, hv.1]
    · rw [if_neg hv, if_neg hv]; simp [over]

/-- C48 (safety, success, failure): for every input the call returns; if it returns 1, `key32` holds a valid
key, otherwise zeros. -/
theorem C48_key_decode_safe (enc key32 : List Byte) (hk : 32 ≤ key32.length) :
    ∃ mem r, keyDecode enc enc.length key32 = .ok (mem, r) ∧ mem.drop 32 = key32.drop 32 ∧
      (r = true → ValidKey (mem.take 32)) ∧ (r = false → mem.take 32 = List.replicate 32 0#8) := by
  rw [C48_key_decode_spec enc key32 hk]
  refine ⟨_, _, rfl, ?_⟩
  have hz : (over (List.replicate 32 0#8) key32).drop 32 = key32.drop 32 ∧
      (over (List.replicate 32 0#8) key32).take 32 = List.replicate 32 0#8 := by
    rw [over, List.drop_left' (by simp), List.take_left' (by simp)]; simp
  cases hp : privateKey? enc with
  | none => exact ⟨hz.1, by simp, fun _ => hz.2⟩
  | some k =>
    simp only []
    by_cases hv : ValidKey k
    · rw [if_pos hv]
      simp only [over]
      rw [List.drop_left' hv.1, List.take_left' hv.1, hv.1]
      exact ⟨rfl, fun _ => hv, by simp⟩
    · rw [if_neg hv]; exact ⟨hz.1, by simp, fun _ => hz.2⟩

theorem privateKey?_ecPrivateKey (key : List Byte) (compr : Bool) (hv : ValidKey key) (post : List Byte) :
    privateKey? (ecPrivateKey key compr ++ post) = some key := by
  obtain ⟨x, y, h1, h2, h3⟩ := pubkeyCreate_valid key hv
  have hk := hv.1
  have l1 : middleCompressed.length = 141 := by decide +kernel
  have l2 : middleUncompressed.length = 173 := by decide +kernel
  cases compr with
  | true =>
    rw [ecPrivateKey_compressed key hk x y h2, beginCompressed]
    simp only [List.cons_append, List.nil_append, List.append_assoc, privateKey?]
    rw [show (0x81#8).toNat - 128 = 1 from rfl, if_pos]
    · simp only [List.drop_succ_cons, List.drop_zero]
      rw [show (0x20#8).toNat = 32 from rfl, if_pos ⟨trivial, trivial, trivial, trivial, by omega, by simp; omega⟩,
        List.take_left' hk]
      simp
    · refine ⟨trivial, by simp, by simp, ?_⟩
      simp only [List.take_succ_cons, List.take_zero, List.drop_succ_cons, List.drop_zero, List.length_cons,
        List.length_append, hk, l1, compressed_length]
      simp [beNat]; omega
  | false =>
    rw [ecPrivateKey_uncompressed key hk x y h2, beginUncompressed]
    simp only [List.cons_append, List.nil_append, List.append_assoc, privateKey?]
    rw [show (0x82#8).toNat - 128 = 2 from rfl, if_pos]
    · simp only [List.drop_succ_cons, List.drop_zero]
      rw [show (0x20#8).toNat = 32 from rfl, if_pos ⟨trivial, trivial, trivial, trivial, by omega, by simp; omega⟩,
        List.take_left' hk]
      simp
    · refine ⟨trivial, by simp, by simp, ?_⟩
      simp only [List.take_succ_cons, List.take_zero, List.drop_succ_cons, List.drop_zero, List.length_cons,
        List.length_append, hk, l2, uncompressed_length]
      simp [beNat]; omega

/-- C47. For every valid key and both formats, `fingera_btc_key_encode` succeeds, writes exactly 279 or 214 bytes,
and `fingera_btc_key_decode` of them, even with other bytes behind, returns 1 and the key. -/
theorem C47_der_roundtrip (nd : Bool) (key out key32 post : List Byte) (compr : Bool) (hv : ValidKey key)
    (ho : (if compr then 214 else 279) ≤ out.length) (hk : 32 ≤ key32.length) :
    ∃ enc, enc.length = (if compr then 214 else 279) ∧
      keyEncode nd key out (if compr then 214 else 279) = .ok (over enc out, true) ∧
      keyDecode (enc ++ post) (enc ++ post).length key32 = .ok (over key key32, true) := by
  obtain ⟨h1, h2⟩ := C47_key_encode nd key out compr hv ho
  refine ⟨_, h1, h2, ?_⟩
  rw [C48_key_decode_spec _ _ hk, privateKey?_ecPrivateKey key compr hv post]
  simp only []
  rw [if_pos hv]

/-- C49 (exact behaviour) and C50. For every input, `fingera_btc_signature_decode` stays inside the
input and its own arrays and returns: 0 if the input does not follow the lax grammar
`DerSpec.signature?`; otherwise 1, with the two numbers, or (0, 0) if one of them is not below the
group order. -/
theorem C49_signature_decode_spec (enc : List Byte) (hl : enc.length < 2 ^ 64) :
    signatureDecode enc enc.length = .ok (match signature? enc with
      | none => (⟨0, 0⟩, false)
      | some (r, s) => (if r < n ∧ s < n then ⟨r, s⟩ else ⟨0, 0⟩, true)) :=
  parseDerLax_eq enc hl

/-- C50. For every input, `fingera_btc_signature_decode` returns without touching memory outside the input and its
own arrays. -/
theorem C50_signature_decode_safe (enc : List Byte) (hl : enc.length < 2 ^ 64) :
    ∃ sig r, signatureDecode enc enc.length = .ok (sig, r) ∧ sig.r < n ∧ sig.s < n := by
  rw [C49_signature_decode_spec enc hl]
  have := n_pos
  cases signature? enc with
  | none => exact ⟨_, _, rfl, this, this⟩
  | some rs =>
    refine ⟨_, _, rfl, ?_⟩
    split
    · assumption
    · exact ⟨this, this⟩

namespace DerSpec

theorem bytesOf_spec (v : Nat) (h : v < 256 ^ 32) : beNat (bytesOf v) = v ∧ (bytesOf v).length ≤ 32 := by
  have h1 : beNat (bytesOf v) = v := by
    rw [bytesOf, beNat_dropWhile, beNat_beBytes_lt _ _ (lt_trans h (by norm_num))]
  refine ⟨h1, ?_⟩
  by_contra hl
  have := beNat_long (beBytes 33 v) 32 (by rw [bytesOf] at hl; omega)
  rw [beNat_beBytes_lt _ _ (lt_trans h (by norm_num))] at this
  omega

/-- The contents of the INTEGER of `derInt`. -/
theorem derInt_spec (v : Nat) (h : v < 256 ^ 32) :
    ∃ c, derInt v = 0x02#8 :: BitVec.ofNat 8 c.length :: c ∧ beNat c = v ∧ c.length ≤ 33 := by
  obtain ⟨h1, h2⟩ := bytesOf_spec v h
  rw [derInt]
  cases hb : bytesOf v with
  | nil =>
    refine ⟨_, rfl, ?_, by simp⟩
    rw [hb] at h1
    rw [← h1]; rfl
  | cons b bs =>
    refine ⟨_, rfl, ?_, ?_⟩
    · simp only []
      rw [hb] at h1
      split
      · exact h1
      · have := beNat_zeros 1 (b :: bs)
        exact this.trans h1
    · rw [hb] at h2
      simp only []
      split <;> simp at h2 ⊢ <;> omega

theorem integer?_derInt (v : Nat) (h : v < 256 ^ 32) (rest : List Byte) :
    ∃ c, integer? (derInt v ++ rest) = some (c, rest) ∧ beNat c = v := by
  obtain ⟨c, h1, h2, h3⟩ := derInt_spec v h
  refine ⟨c, ?_, h2⟩
  have hc : (BitVec.ofNat 8 c.length).toNat = c.length := by
    rw [BitVec.toNat_ofNat]; omega
  rw [h1]
  simp only [List.cons_append, integer?, if_true, length?]
  rw [hc, if_pos (by omega)]
  simp only []
  rw [if_pos (by simp), List.take_left, List.drop_left]

theorem derInt_length (v : Nat) (h : v < 256 ^ 32) : (derInt v).length ≤ 35 := by
  obtain ⟨c, h1, h2, h3⟩ := derInt_spec v h
  rw [h1]; simp; omega

theorem signature?_derSig (r s : Nat) (hr : r < 256 ^ 32) (hs : s < 256 ^ 32) (garbage : List Byte) :
    signature? (derSig r s ++ garbage) = some (r, s) := by
  obtain ⟨c, c1, c2⟩ := integer?_derInt r hr (derInt s ++ garbage)
  obtain ⟨d, d1, d2⟩ := integer?_derInt s hs garbage
  have lr := derInt_length r hr
  have ls := derInt_length s hs
  rw [derSig, signature?]
  simp only [List.cons_append, sequence?, if_true]
  have : (BitVec.ofNat 8 (derInt r ++ derInt s).length).toNat < 128 := by
    rw [BitVec.toNat_ofNat, List.length_append]; omega
  rw [if_pos this]
  simp only [List.append_assoc, c1, d1, c2, d2]

end DerSpec

/-- C49. The strict DER encoding of any two numbers below 2^256, with anything behind it, decodes to just
these numbers if both are below the group order, and to (0, 0) otherwise. -/
theorem C49_strict (r s : Nat) (hr : r < 2 ^ 256) (hs : s < 2 ^ 256) (garbage : List Byte)
    (hl : (derSig r s ++ garbage).length < 2 ^ 64) :
    signatureDecode (derSig r s ++ garbage) (derSig r s ++ garbage).length =
      .ok (if r < n ∧ s < n then ⟨r, s⟩ else ⟨0, 0⟩, true) := by
  rw [C49_signature_decode_spec _ hl, signature?_derSig r s (by norm_num; norm_num at hr; exact hr) (by norm_num; norm_num at hs; exact hs)]

/-- C47 (other keys). An invalid key is never encoded: with `NDEBUG` the call returns 0 and writes nothing, without it
an assertion fails. -/
theorem C47_invalid_key (key out : List Byte) (compr : Bool) (hk : key.length = 32) (hv : ¬ ValidKey key) :
    keyEncode true key out (if compr then 214 else 279) = .ok (out, false) ∧
    keyEncode false key out (if compr then 214 else 279) = .abort := by
  have hg := get32_left key [] hk
  rw [List.append_nil] at hg
  have hc : pubkeyCreate key = .ok (none, false) := by
    rw [pubkeyCreate, hg, Res.ok_bind, if_neg (fun h => hv ⟨hk, h.1, h.2⟩)]; rfl
  have he : ∀ nd len c, exportDer nd out len key c = .ok (out, 0, false) := by
    intro nd len c
    rw [exportDer, hc]; rfl
  cases compr <;> constructor <;> rw [keyEncode] <;> simp [assertNd, assertC, he]

/-- Instances: the smallest and the largest valid key, their encodings and the way back; and a signature. -/
example : ValidKey (beBytes 32 1) ∧ ValidKey (beBytes 32 (n - 1)) ∧ ¬ ValidKey (beBytes 32 n) ∧
    ¬ ValidKey (beBytes 32 0) := by decide +kernel

example : keyDecode (ecPrivateKey (beBytes 32 (n - 1)) true) 214 (List.replicate 40 7#8) =
    .ok (beBytes 32 (n - 1) ++ List.replicate 8 7#8, true) ∧
    keyDecode ([0x30#8, 0x81#8, 0x07#8, 0x02#8, 0x01#8, 0x01#8, 0x04#8, 0x02#8, 0x01#8, 0x02#8]) 10
      (List.replicate 33 7#8) = .ok (beBytes 32 258 ++ [7#8], true) ∧
    keyDecode [] 0 (List.replicate 33 7#8) = .ok (List.replicate 32 0#8 ++ [7#8], false) := by decide +kernel

example : signatureDecode (derSig (n - 1) 5 ++ [1#8, 2#8]) (derSig (n - 1) 5 ++ [1#8, 2#8]).length =
      .ok (⟨n - 1, 5⟩, true) ∧
    signatureDecode (derSig n 5) (derSig n 5).length = .ok (⟨0, 0⟩, true) ∧
    -- overlong length descriptors and padding are accepted
    signatureDecode [0x30#8, 0x00#8, 0x02#8, 0x83#8, 0#8, 0#8, 3#8, 0#8, 0#8, 9#8, 0x02#8, 0x01#8, 0x80#8] 13 =
      .ok (⟨9, 128⟩, true) ∧
    signatureDecode [0x30#8, 0x06#8, 0x02#8, 0x01#8, 0x01#8, 0x02#8, 0x02#8, 0x01#8] 8 = .ok (⟨0, 0⟩, false) := by
  decide +kernel
