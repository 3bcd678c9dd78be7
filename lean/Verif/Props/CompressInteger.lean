import Verif.Lemmas.CompressInteger
/-! Property theorems C20–C24 about `compress_integer.c`. -/
open CompressInteger VarintSpec

/-- C21. For every 64-bit value there is a complete encoding that denotes exactly the value, of 1 to 10 bytes, the number of
bytes being the one whose bijective base-128 range contains the value; `fingera_encode_varint` writes it, and nothing else,
into every buffer that has room for it, and leaves a smaller one. -/
theorem C21_encode_varint (v : U64) :
    ∃ W, Complete W ∧ value W = v.toNat ∧ 1 ≤ W.length ∧ W.length ≤ 10 ∧
      least W.length ≤ v.toNat ∧ v.toNat < least (W.length + 1) ∧
      ∀ tmp0 buf : List Byte, tmp0.length = 10 →
        (W.length ≤ buf.length → encodeVarint tmp0 v buf = .ok (over W buf, W.length)) ∧
        (buf.length < W.length → encodeVarint tmp0 v buf = .ub) := by
  have h1 := enc_length_le v
  obtain ⟨h2, h3, h4⟩ := enc_least v.toNat
  exact ⟨enc v.toNat, enc_complete _, enc_value _, h2, h1, h3, h4, fun tmp0 buf ht =>
    ⟨encodeVarint_eq tmp0 buf v ht, encodeVarint_ub tmp0 buf v ht⟩⟩

/-- What a call that returned has written. -/
theorem encodeVarint_inv {tmp0 buf o : List Byte} {v : U64} {n : Nat} (ht : tmp0.length = 10)
    (h : encodeVarint tmp0 v buf = .ok (o, n)) : o = over (enc v.toNat) buf ∧ n = (enc v.toNat).length ∧ n ≤ buf.length := by
  by_cases hb : (enc v.toNat).length ≤ buf.length
  · rw [encodeVarint_eq tmp0 buf v ht hb] at h
    simp only [Res.ok.injEq, Prod.mk.injEq] at h
    exact ⟨h.1.symm, h.2.symm, by omega⟩
  · rw [encodeVarint_ub tmp0 buf v ht (by omega)] at h; cases h

/-- C21 (monotone length). -/
theorem C21_length_monotone (tmp0 tmp1 buf buf' o o' : List Byte) (v w : U64) (n m : Nat)
    (ht : tmp0.length = 10) (ht' : tmp1.length = 10)
    (hv : encodeVarint tmp0 v buf = .ok (o, n)) (hw : encodeVarint tmp1 w buf' = .ok (o', m))
    (h : v.toNat ≤ w.toNat) : n ≤ m := by
  obtain ⟨a1, a2, a3⟩ := enc_least v.toNat
  obtain ⟨b1, b2, b3⟩ := enc_least w.toNat
  rw [← (encodeVarint_inv ht hv).2.1] at a1 a2 a3; rw [← (encodeVarint_inv ht' hw).2.1] at b1 b2 b3
  have hm : ∀ k, least (k+1) ≤ least (k+2) := by
    intro k
    induction k with
    | zero => simp [least]
    | succ k ih => simp only [least] at ih ⊢; omega
  have hmono : ∀ a d, least (a + 1) ≤ least (a + 1 + d) := by
    intro a d
    induction d with
    | zero => exact Nat.le_refl _
    | succ d ih => exact Nat.le_trans ih (by have := hm (a + d); rwa [show a + d + 1 = a + 1 + d by omega, show a + d + 2 = a + 1 + (d+1) by omega] at this)
  by_cases hnm : n ≤ m
  · exact hnm
  · have := hmono m (n - (m+1))
    rw [show m + 1 + (n - (m+1)) = n by omega] at this
    omega

example : encodeVarint (List.replicate 10 0) 0xFFFF#64 (List.replicate 10 7) =
    .ok ([0x82, 0xFE, 0x7F, 7, 7, 7, 7, 7, 7, 7], 3) := by decide +kernel
example : encodeVarint (List.replicate 10 0) 0xFFFFFFFFFFFFFFFF#64 (List.replicate 10 7) =
    .ok ([0x80, 0xFE, 0xFE, 0xFE, 0xFE, 0xFE, 0xFE, 0xFE, 0xFE, 0x7F], 10) := by decide +kernel

/-- C20. Round trip, whatever follows the encoding in memory and however large the announced size
is (at least the encoding). -/
theorem C20_varint_roundtrip (tmp0 buf o post : List Byte) (v : U64) (n size : Nat)
    (ht : tmp0.length = 10) (he : encodeVarint tmp0 v buf = .ok (o, n)) (hs : n ≤ size) :
    decodeVarint (o.take n ++ post) size = .ok (v, n) := by
  have h1 := enc_length_le v
  obtain ⟨rfl, rfl, -⟩ := encodeVarint_inv ht he
  have : (over (enc v.toNat) buf).take (enc v.toNat).length = enc v.toNat := by simp [over]
  rw [this]
  obtain ⟨p, b, hpb, hp, hb'⟩ := enc_complete v.toNat
  have hv := enc_value v.toNat
  rw [hpb] at h1 hs hv ⊢
  simp only [List.length_append, List.length_cons, List.length_nil] at h1 hs ⊢
  rw [List.append_assoc, List.singleton_append,
    decodeVarint_stop p b post size hp hb' (by omega) (by omega), hv]
  simp

/-- Read `k` varints one after the other, the way a caller walks through a buffer. -/
def readVarints : Nat → List Byte → Res (List U64 × List Byte)
  | 0, bs => .ok ([], bs)
  | k+1, bs => do
    let (v, n) ← decodeVarint bs bs.length
    let (vs, rest) ← readVarints k (bs.drop n)
    pure (v :: vs, rest)

/-- Write varints one after the other, each through a 10-byte scratch buffer. -/
def writeVarints (tmp0 scratch : List Byte) : List U64 → Res (List Byte)
  | [] => .ok []
  | v :: vs => do
    let (o, n) ← encodeVarint tmp0 v scratch
    let rest ← writeVarints tmp0 scratch vs
    pure (o.take n ++ rest)

/-- C20 (self-delimitation). Any sequence of values written back to back is read back one by one,
and what follows is left. -/
theorem C20_varint_stream (tmp0 scratch post : List Byte) (vs : List U64) (ht : tmp0.length = 10)
    (hb : 10 ≤ scratch.length) :
    ∃ s, writeVarints tmp0 scratch vs = .ok s ∧
      readVarints vs.length (s ++ post) = .ok (vs, post) := by
  induction vs with
  | nil => exact ⟨[], rfl, rfl⟩
  | cons v vs ih =>
    obtain ⟨s, h1, h2⟩ := ih
    have hl := enc_length_le v
    have he := encodeVarint_eq tmp0 scratch v ht (by omega)
    have ht2 : (over (enc v.toNat) scratch).take (enc v.toNat).length = enc v.toNat := by simp [over]
    refine ⟨enc v.toNat ++ s, ?_, ?_⟩
    · simp [writeVarints, he, h1, ht2]
    · have hd := C20_varint_roundtrip tmp0 scratch _ (s ++ post) v _
        (enc v.toNat ++ (s ++ post)).length ht he (by simp)
      rw [ht2] at hd
      rw [List.length_cons, readVarints, List.append_assoc, hd]
      simp only [Res.ok_bind]
      rw [List.drop_left, h2]; rfl

example : writeVarints (List.replicate 10 0) (List.replicate 10 0) [5#64, 300#64] =
    .ok [5, 0x81, 0x2C] := by decide +kernel
example : readVarints 2 [5, 0x81, 0x2C, 9] = .ok ([5#64, 300#64], [9]) := by decide +kernel

/-- C22. Any input: the decoder only looks at the first `min size 10` bytes (the object may end
there), fails exactly when all of them are continuation bytes, and otherwise stops right after the
first byte with a clear top bit, having computed the denoted number modulo 2^64. -/
theorem C22_decode_varint_any (buf : List Byte) (size : Nat) (hs : min size 10 ≤ buf.length) :
    ∃ (x : U64) (r : Nat), decodeVarint buf size = .ok (x, r) ∧ r ≤ min size 10 ∧
      (r = 0 ↔ ∀ b ∈ buf.take (min size 10), 128 ≤ b.toNat) ∧
      (r ≠ 0 → Complete (buf.take r) ∧ x = BitVec.ofNat 64 (value (buf.take r))) := by
  by_cases h : ∀ b ∈ buf.take (min size 10), 128 ≤ b.toNat
  · exact ⟨_, 0, decodeVarint_fail buf size hs h, by omega, by simpa using h, by simp⟩
  · -- first byte with a clear top bit
    have key : ∀ l : List Byte, (¬ ∀ b ∈ l, 128 ≤ b.toNat) →
        ∃ p b q, l = p ++ b :: q ∧ (∀ x ∈ p, 128 ≤ x.toNat) ∧ b.toNat < 128 := by
      intro l
      induction l with
      | nil => intro h; exact absurd (by simp) h
      | cons a l ih =>
        intro h
        by_cases ha : 128 ≤ a.toNat
        · obtain ⟨p, b, q, rfl, hp, hb⟩ := ih (fun hl => h (by
            intro b hb
            rcases List.mem_cons.mp hb with rfl | hb
            · exact ha
            · exact hl b hb))
          refine ⟨a :: p, b, q, rfl, ?_, hb⟩
          intro x hx
          rcases List.mem_cons.mp hx with rfl | hx
          · exact ha
          · exact hp x hx
        · exact ⟨[], a, l, rfl, by simp, by omega⟩
    obtain ⟨p, b, q, hl, hp, hb⟩ := key _ h
    have hlen := congrArg List.length hl
    simp only [List.length_take, List.length_append, List.length_cons, Nat.min_eq_left hs] at hlen
    have hbuf : buf = p ++ b :: (q ++ buf.drop (min size 10)) := by
      conv => lhs; rw [← List.take_append_drop (min size 10) buf, hl]
      simp
    have ht : buf.take (p.length + 1) = p ++ [b] := by
      rw [hbuf, List.take_append, List.take_of_length_le (by omega)]
      simp
    refine ⟨BitVec.ofNat 64 (value (p ++ [b])), p.length + 1, ?_, by omega, by simpa using h, ?_⟩
    · rw [hbuf]
      exact decodeVarint_stop p b _ size hp hb (by omega) (by omega)
    · intro _
      rw [ht]
      exact ⟨⟨p, b, rfl, hp, hb⟩, rfl⟩

example : decodeVarint [0x81, 0x2C] 77 = .ok (300#64, 2) ∧ decodeVarint [0x81, 0x80] 2 = .ok (257#64, 0) := by
  decide +kernel

/-- C23 is violated by the code for overflowing 10-byte inputs: this one is accepted with value 0,
which encodes as a single byte. -/
theorem C23_violated_overflow :
    decodeVarint [0x80, 0xFE, 0xFE, 0xFE, 0xFE, 0xFE, 0xFE, 0xFE, 0xFF, 0x00] 10 = .ok (0#64, 10) ∧
    encodeVarint (List.replicate 10 0) 0#64 (List.replicate 10 7) =
      .ok ([0, 7, 7, 7, 7, 7, 7, 7, 7, 7], 1) := by decide +kernel

/-- C23, the part that holds: whenever the decoder accepts the first `r` bytes, re-encoding the decoded value gives the same
bytes (in any buffer with room for them) exactly if they denote a number below 2^64.
Missing: 10-byte inputs denoting 2^64 or more (see `C23_violated_overflow`). -/
theorem C23_varint_unique_partial (tmp0 buf out : List Byte) (size r : Nat) (x : U64)
    (ht : tmp0.length = 10) (ho : r ≤ out.length) (hs : min size 10 ≤ buf.length)
    (hd : decodeVarint buf size = .ok (x, r)) (hr : r ≠ 0) :
    encodeVarint tmp0 x out = .ok (over (buf.take r) out, r) ↔ value (buf.take r) < 2 ^ 64 := by
  obtain ⟨x', r', h1, h2, -, h4⟩ := C22_decode_varint_any buf size hs
  rw [hd] at h1
  simp only [Res.ok.injEq, Prod.mk.injEq] at h1
  obtain ⟨rfl, rfl⟩ := h1
  obtain ⟨hc, rfl⟩ := h4 hr
  have hlen : (buf.take r).length = r := by rw [List.length_take]; omega
  constructor
  · intro h
    obtain ⟨e1, e2, -⟩ := encodeVarint_inv ht h
    have tk : ∀ W : List Byte, ∀ k, W.length = k → (over W out).take k = W := by
      intro W k hk; subst hk; simp [over]
    have e3 : buf.take r = enc (BitVec.ofNat 64 (value (buf.take r))).toNat := by
      have := congrArg (List.take r) e1
      rwa [tk _ _ hlen, tk _ _ e2.symm] at this
    rw [e3, enc_value]
    exact BitVec.isLt _
  · intro hv
    have hx : (BitVec.ofNat 64 (value (buf.take r))).toNat = value (buf.take r) := by
      rw [BitVec.toNat_ofNat]; exact Nat.mod_eq_of_lt hv
    have hu := enc_unique _ hc
    rw [encodeVarint_eq tmp0 out _ ht (by rw [hx, hu]; omega), hx, hu, hlen]

/-- C23 for encodings of at most nine bytes: no proviso is needed. -/
theorem C23_varint_unique_upto_nine (tmp0 buf out : List Byte) (size r : Nat) (x : U64)
    (ht : tmp0.length = 10) (ho : r ≤ out.length) (hs : min size 10 ≤ buf.length)
    (hd : decodeVarint buf size = .ok (x, r)) (hr : r ≠ 0) (h9 : r ≤ 9) :
    encodeVarint tmp0 x out = .ok (over (buf.take r) out, r) := by
  refine (C23_varint_unique_partial tmp0 buf out size r x ht ho hs hd hr).mpr ?_
  have key : ∀ k, ∀ l : List Byte, l.length ≤ k → value l + 1 ≤ 130 ^ k := by
    intro k
    induction k with
    | zero => intro l hl; have : l = [] := List.length_eq_zero_iff.mp (by omega)
              subst this; simp [value]
    | succ k ih =>
      intro l hl
      by_cases h0 : l = []
      · subst h0; simp only [value, List.foldl_nil]; exact Nat.one_le_pow _ _ (by omega)
      · rw [← List.dropLast_concat_getLast h0, value_snoc]
        have := ih l.dropLast (by simp; omega)
        have hm := Nat.mod_lt (l.getLast h0).toNat (show 128 > 0 by omega)
        rw [Nat.pow_succ]
        split <;> omega
  have h1 := key 9 (buf.take r) (by simp; omega)
  have : (130:Nat) ^ 9 < 2 ^ 64 := by decide
  omega

example : decodeVarint [0x81, 0x2C] 2 = .ok (300#64, 2) ∧ value [0x81, 0x2C] < 2^64 := by decide +kernel

/-- C24 is violated by the code at a single point: `llabs(INT64_MIN)` overflows. -/
theorem C24_violated_int64_min (tmp0 buf : List Byte) : encodeZigzag tmp0 (BitVec.intMin 64) buf = .ub := by
  rw [encodeZigzag, llabs, if_pos rfl]; rfl

/-- C24 (exact). `fingera_encode_zigzag` is undefined for INT64_MIN and otherwise does what `fingera_encode_varint` does with
twice the magnitude, plus one if negative. -/
theorem C24_encode_zigzag_exact (tmp0 buf : List Byte) (v : BitVec 64) :
    (v.toInt = -2 ^ 63 → encodeZigzag tmp0 v buf = .ub) ∧
    (v.toInt ≠ -2 ^ 63 → zigzag v.toInt < 2 ^ 64 ∧
      encodeZigzag tmp0 v buf = encodeVarint tmp0 (BitVec.ofNat 64 (zigzag v.toInt)) buf) := by
  constructor
  · intro h
    have : v = BitVec.intMin 64 := by
      apply BitVec.eq_of_toInt_eq; rw [h]; decide
    rw [this]; exact C24_violated_int64_min tmp0 buf
  · intro h
    have hv : v ≠ BitVec.intMin 64 := by
      rintro rfl; exact h (by decide)
    have hlt := v.isLt
    have hint := BitVec.toInt_eq_toNat_cond v
    by_cases hneg : v.slt 0#64
    · have hm : v.msb = true := by simpa [BitVec.slt_zero_eq_msb] using hneg
      have h3 : 2^63 ≤ v.toNat := by simpa [BitVec.msb_eq_decide] using hm
      have h4 : v.toNat ≠ 2^63 := by
        intro h; apply hv; apply BitVec.eq_of_toNat_eq; rw [h]; decide
      have hz : zigzag v.toInt = 2 * (2 ^ 64 - v.toNat) + 1 := by
        rw [hint, if_neg (by omega), zigzag, if_pos (by omega)]; omega
      have hlt : (-v).toNat = 2 ^ 64 - v.toNat := by
        rw [BitVec.toNat_neg]; omega
      refine ⟨by omega, ?_⟩
      simp only [encodeZigzag, llabs, hv, hneg, if_true, if_false, Res.ok_bind]
      congr 1
      apply BitVec.eq_of_toNat_eq
      rw [BitVec.toNat_or, BitVec.toNat_shiftLeft, hlt, hz, BitVec.toNat_ofNat, Nat.shiftLeft_eq, Nat.mod_eq_of_lt (by omega),
        Nat.mul_comm _ (2 ^ 1), Nat.mod_eq_of_lt (show 1 < 2 ^ 64 by decide), ← Nat.two_pow_add_eq_or_of_lt (by omega),
        BitVec.toNat_ofNat, Nat.mod_eq_of_lt (by omega)]
    · have hm : v.msb = false := by simpa [BitVec.slt_zero_eq_msb] using hneg
      have h3 : v.toNat < 2^63 := by simpa [BitVec.msb_eq_decide] using hm
      have hz : zigzag v.toInt = 2 * v.toNat := by
        rw [hint, if_pos (by omega), zigzag, if_neg (by omega)]; omega
      refine ⟨by omega, ?_⟩
      simp only [encodeZigzag, llabs, hv, hneg, if_false, Res.ok_bind, Bool.false_eq_true]
      congr 1
      apply BitVec.eq_of_toNat_eq
      rw [BitVec.or_zero, BitVec.toNat_shiftLeft, hz, BitVec.toNat_ofNat, Nat.shiftLeft_eq]
      omega

/-- C24, what is read from any bytes: nothing if `fingera_decode_varint` fails, and then `*out` is left alone; otherwise the signed
number that the unsigned one stands for. -/
theorem C24_decode_zigzag_any (buf : List Byte) (size : Nat) (out0 : BitVec 64) :
    decodeZigzag buf size out0 = (do
      let (u, n) ← decodeVarint buf size
      pure (if n = 0 then out0 else BitVec.ofInt 64 (unzigzag u.toNat), n)) := by
  unfold decodeZigzag
  match decodeVarint buf size with
  | .ub => rfl
  | .abort => rfl
  | .ok (u, n) =>
    simp only [Res.ok_bind, Res.pure_eq]
    by_cases hn : n = 0
    · rw [if_neg (by omega), if_pos hn]
    · rw [if_pos (by omega), if_neg hn]
      have hbit : (u &&& 1#64 ≠ 0#64) ↔ u.toNat % 2 = 1 := by
        rw [← Nat.and_one_is_mod, ← show (1#64).toNat = 1 from rfl, ← BitVec.toNat_and, show (1#64).toNat = 1 from rfl]
        have : (u &&& 1#64).toNat = u.toNat % 2 := by rw [BitVec.toNat_and, ← Nat.and_one_is_mod]; rfl
        rw [this]
        constructor
        · intro h
          have : (u &&& 1#64).toNat ≠ 0 := fun e => h (BitVec.eq_of_toNat_eq (by rw [e]; rfl))
          omega
        · intro h e
          rw [e] at this
          simp at this; omega
      have hsh : u >>> 1 = BitVec.ofInt 64 ((u.toNat / 2 : Nat) : Int) := by
        apply BitVec.eq_of_toNat_eq
        have := u.isLt
        rw [BitVec.ofInt_natCast, BitVec.toNat_ofNat, BitVec.toNat_ushiftRight, Nat.shiftRight_eq_div_pow]
        omega
      by_cases hb : u.toNat % 2 = 1
      · rw [if_pos (hbit.mpr hb), unzigzag, if_pos hb, hsh, ← BitVec.ofInt_neg]
      · rw [if_neg (fun e => hb (hbit.mp e)), unzigzag, if_neg hb, hsh]

/-- The numbers and their signs. -/
theorem unzigzag_zigzag (v : Int) : unzigzag (zigzag v) = v := by
  unfold unzigzag zigzag
  split <;> split <;> omega

/-- C24, the part that holds: every other signed value survives the round trip, whatever follows; and it is written into every
buffer with room for its encoding.
Missing: INT64_MIN (see `C24_violated_int64_min`). -/
theorem C24_zigzag_roundtrip_partial (v : BitVec 64) (hv : v.toInt ≠ -2 ^ 63) :
    ∃ W : List Byte, Complete W ∧ value W = zigzag v.toInt ∧ 1 ≤ W.length ∧ W.length ≤ 10 ∧
      (∀ tmp0 buf : List Byte, tmp0.length = 10 →
        (W.length ≤ buf.length → encodeZigzag tmp0 v buf = .ok (over W buf, W.length)) ∧
        (buf.length < W.length → encodeZigzag tmp0 v buf = .ub)) ∧
      ∀ (post : List Byte) (size : Nat) (out0 : BitVec 64), W.length ≤ size →
        decodeZigzag (W ++ post) size out0 = .ok (v, W.length) := by
  have h64 := ((C24_encode_zigzag_exact [] [] v).2 hv).1
  have hu : (BitVec.ofNat 64 (zigzag v.toInt)).toNat = zigzag v.toInt := by
    rw [BitVec.toNat_ofNat]; exact Nat.mod_eq_of_lt h64
  obtain ⟨W, h1, h2, h3, h4, -, -, h5⟩ := C21_encode_varint (BitVec.ofNat 64 (zigzag v.toInt))
  refine ⟨W, h1, by rw [h2, hu], h3, h4, ?_, ?_⟩
  · intro tmp0 buf ht
    rw [((C24_encode_zigzag_exact tmp0 buf v).2 hv).2]
    exact h5 tmp0 buf ht
  · intro post size out0 hs
    have he := (h5 (List.replicate 10 0#8) (List.replicate 10 0#8) (by simp)).1 (by simp; omega)
    have hd := C20_varint_roundtrip _ _ _ post _ _ size (by simp) he hs
    have : (over W (List.replicate 10 0#8)).take W.length = W := by simp [over]
    rw [this] at hd
    rw [C24_decode_zigzag_any, hd]
    simp only [Res.ok_bind, Res.pure_eq]
    rw [if_neg (by omega), hu, unzigzag_zigzag, BitVec.ofInt_toInt]

example : encodeZigzag (List.replicate 10 0) (-150 : BitVec 64) (List.replicate 10 7) =
    .ok ([0x81, 0x2D, 7, 7, 7, 7, 7, 7, 7, 7], 2) ∧
    decodeZigzag [0x81, 0x2D] 10 0 = .ok ((-150 : BitVec 64), 2) := by decide +kernel
/-- C24: on failure the previous `*out` is left alone. -/
theorem C24_zigzag_failure_keeps_out (buf : List Byte) (size : Nat) (out0 out : BitVec 64)
    (h : decodeZigzag buf size out0 = .ok (out, 0)) : out = out0 := by
  unfold decodeZigzag at h
  match hd : decodeVarint buf size, h with
  | .ok (u, n), h =>
    simp only [Res.ok_bind] at h
    split at h
    · split at h <;> simp at h <;> omega
    · simp at h; exact h.1.symm
  | .ub, h => simp at h
  | .abort, h => simp at h
example : decodeZigzag [0x81] 1 42 = .ok (42, 0) := by decide +kernel

/-- C103. The number of bytes grows with the magnitude only: of two values that are written, one that is not further from zero
never needs more bytes. -/
theorem C103_length_monotone (tmp0 tmp1 buf buf' o o' : List Byte) (v w : BitVec 64) (n m : Nat)
    (ht : tmp0.length = 10) (ht' : tmp1.length = 10)
    (hv : encodeZigzag tmp0 v buf = .ok (o, n)) (hw : encodeZigzag tmp1 w buf' = .ok (o', m))
    (h : v.toInt.natAbs ≤ w.toInt.natAbs) : n ≤ m := by
  have out : ∀ (t b o : List Byte) (x : BitVec 64) (k : Nat), encodeZigzag t x b = .ok (o, k) → x.toInt ≠ -2 ^ 63 := by
    intro t b o x k hx e
    rw [(C24_encode_zigzag_exact t b x).1 e] at hx; cases hx
  obtain ⟨h1, e1⟩ := (C24_encode_zigzag_exact tmp0 buf v).2 (out _ _ _ _ _ hv)
  obtain ⟨h2, e2⟩ := (C24_encode_zigzag_exact tmp1 buf' w).2 (out _ _ _ _ _ hw)
  have u1 : (BitVec.ofNat 64 (zigzag v.toInt)).toNat = zigzag v.toInt := by
    rw [BitVec.toNat_ofNat]; exact Nat.mod_eq_of_lt h1
  have u2 : (BitVec.ofNat 64 (zigzag w.toInt)).toNat = zigzag w.toInt := by
    rw [BitVec.toNat_ofNat]; exact Nat.mod_eq_of_lt h2
  rw [e1] at hv; rw [e2] at hw
  -- the two zigzag numbers of one magnitude need the same room: every boundary is even
  have hodd : ∀ k, least k % 2 = 0 := by
    intro k
    match k with
    | 0 => rfl
    | 1 => rfl
    | k+2 => rw [least]; omega
  obtain ⟨-, n1, hb1⟩ := encodeVarint_inv ht hv
  obtain ⟨-, n2, hb2⟩ := encodeVarint_inv ht' hw
  rw [u1] at n1; rw [u2] at n2
  by_cases hle : zigzag v.toInt ≤ zigzag w.toInt
  · exact C21_length_monotone tmp0 tmp1 buf buf' o o' _ _ n m ht ht' hv hw (by rw [u1, u2]; exact hle)
  · have hz : zigzag v.toInt = zigzag w.toInt + 1 ∧ zigzag w.toInt % 2 = 0 := by
      unfold zigzag at hle ⊢
      by_cases c1 : v.toInt < 0 <;> by_cases c2 : w.toInt < 0 <;> simp only [c1, c2, if_true, if_false] at hle ⊢ <;> omega
    obtain ⟨a1, a2, a3⟩ := enc_least (zigzag w.toInt)
    obtain ⟨b1, b2, b3⟩ := enc_least (zigzag v.toInt)
    have := hodd (enc (zigzag v.toInt)).length
    have hge : least n ≤ zigzag w.toInt := by rw [n1]; omega
    rw [n2]
    by_cases hnm : n ≤ (enc (zigzag w.toInt)).length
    · exact hnm
    · exfalso
      have hmono : ∀ a d, least (a + 1) ≤ least (a + 1 + d) := by
        intro a d
        induction d with
        | zero => exact Nat.le_refl _
        | succ d ih =>
          refine Nat.le_trans ih ?_
          have : ∀ k, least (k+1) ≤ least (k+2) := by
            intro k
            induction k with
            | zero => simp [least]
            | succ k ih => simp only [least] at ih ⊢; omega
          have := this (a + d)
          rwa [show a + d + 1 = a + 1 + d by omega, show a + d + 2 = a + 1 + (d+1) by omega] at this
      have := hmono (enc (zigzag w.toInt)).length (n - ((enc (zigzag w.toInt)).length + 1))
      rw [show (enc (zigzag w.toInt)).length + 1 + (n - ((enc (zigzag w.toInt)).length + 1)) = n by omega] at this
      omega

/-- C103 is violated by the code: zero has two encodings (the second one is a negative zero), and overflowing ten-byte inputs
are read as numbers that are written otherwise. -/
theorem C103_violated_two_zeros (tmp0 out : List Byte) (ht : tmp0.length = 10) (ho : 1 ≤ out.length) (out0 : BitVec 64) :
    decodeZigzag [0#8] 1 out0 = .ok (0#64, 1) ∧ decodeZigzag [1#8] 1 out0 = .ok (0#64, 1) ∧
    encodeZigzag tmp0 0#64 out = .ok (over [0#8] out, 1) := by
  refine ⟨rfl, rfl, ?_⟩
  have h := ((C24_encode_zigzag_exact tmp0 out 0#64).2 (by decide)).2
  have e : enc 0 = [0#8] := by rw [enc]; rfl
  rw [h]
  have := encodeVarint_eq tmp0 out 0#64 ht (by rw [show (0#64).toNat = 0 from rfl, e]; exact ho)
  rwa [show (0#64).toNat = 0 from rfl, e] at this

/-- C103: no bytes are read as INT64_MIN. -/
theorem C103_never_int64_min (buf : List Byte) (size : Nat) (out0 x : BitVec 64) (r : Nat)
    (h : decodeZigzag buf size out0 = .ok (x, r)) (hr : r ≠ 0) : x.toInt ≠ -2 ^ 63 := by
  rw [C24_decode_zigzag_any] at h
  match hd : decodeVarint buf size, h with
  | .ok (u, n), h =>
    simp only [Res.ok_bind, Res.pure_eq, Res.ok.injEq, Prod.mk.injEq] at h
    obtain ⟨h1, rfl⟩ := h
    rw [if_neg hr] at h1
    subst h1
    have := u.isLt
    have hb : -(2 ^ 63 : Int) < unzigzag u.toNat ∧ unzigzag u.toNat < 2 ^ 63 := by
      unfold unzigzag; split <;> constructor <;> omega
    rw [BitVec.toInt_ofInt, Int.bmod_eq_of_le (by omega) (by omega)]
    omega
  | .ub, h => simp at h
  | .abort, h => simp at h

/-- C103, the part that holds: what `fingera_decode_zigzag` accepts is what `fingera_encode_zigzag` writes for the number read
(in any buffer with room for it) exactly if the bytes denote neither 1 nor a number of 2^64 or more.
Missing: the two exceptions (`C103_violated_two_zeros`, `C23_violated_overflow`). -/
theorem C103_zigzag_unique_partial (tmp0 buf out : List Byte) (size r : Nat) (out0 x : BitVec 64)
    (ht : tmp0.length = 10) (ho : r ≤ out.length) (hs : min size 10 ≤ buf.length)
    (hd : decodeZigzag buf size out0 = .ok (x, r)) (hr : r ≠ 0) :
    encodeZigzag tmp0 x out = .ok (over (buf.take r) out, r) ↔ value (buf.take r) < 2 ^ 64 ∧ value (buf.take r) ≠ 1 := by
  have hmin := C103_never_int64_min buf size out0 x r hd hr
  obtain ⟨h64, he⟩ := (C24_encode_zigzag_exact tmp0 out x).2 hmin
  rw [he]
  obtain ⟨u, r', h1, h2, -, h4⟩ := C22_decode_varint_any buf size hs
  rw [C24_decode_zigzag_any, h1] at hd
  simp only [Res.ok_bind, Res.pure_eq, Res.ok.injEq, Prod.mk.injEq] at hd
  obtain ⟨hx, rfl⟩ := hd
  rw [if_neg hr] at hx
  obtain ⟨hc, hu⟩ := h4 hr
  have hlen : (buf.take r').length = r' := by rw [List.length_take]; omega
  have hlt := u.isLt
  have hxi : x.toInt = unzigzag u.toNat := by
    have hb : -(2 ^ 63 : Int) < unzigzag u.toNat ∧ unzigzag u.toNat < 2 ^ 63 := by
      unfold unzigzag; split <;> constructor <;> omega
    rw [← hx, BitVec.toInt_ofInt, Int.bmod_eq_of_le (by omega) (by omega)]
  have hz : zigzag x.toInt = if u.toNat = 1 then 0 else u.toNat := by
    rw [hxi]; unfold zigzag unzigzag
    split <;> split <;> split <;> omega
  have hun : u.toNat = value (buf.take r') % 2 ^ 64 := by rw [hu, BitVec.toNat_ofNat]
  have hzn : (BitVec.ofNat 64 (zigzag x.toInt)).toNat = zigzag x.toInt := by
    rw [BitVec.toNat_ofNat]; exact Nat.mod_eq_of_lt h64
  constructor
  · intro h
    obtain ⟨e1, e2, -⟩ := encodeVarint_inv ht h
    have tk : ∀ W : List Byte, ∀ k, W.length = k → (over W out).take k = W := by
      intro W k hk; subst hk; simp [over]
    have e3 : buf.take r' = enc (zigzag x.toInt) := by
      have := congrArg (List.take r') e1
      rwa [tk _ _ hlen, tk _ _ e2.symm, hzn] at this
    have e4 := congrArg value e3
    rw [enc_value] at e4
    refine ⟨by omega, fun e5 => ?_⟩
    rw [e5, Nat.mod_eq_of_lt (by decide)] at hun
    rw [hz, if_pos hun] at e4
    omega
  · rintro ⟨hv, hv1⟩
    rw [Nat.mod_eq_of_lt hv] at hun
    have hz' : zigzag x.toInt = value (buf.take r') := by rw [hz, if_neg (by omega), hun]
    have hu2 := enc_unique _ hc
    rw [encodeVarint_eq tmp0 out _ ht (by rw [hzn, hz', hu2]; omega), hzn, hz', hu2, hlen]

example : encodeZigzag (List.replicate 10 0) (-64 : BitVec 64) [7, 7] = .ok ([0x80, 0x01], 2) ∧
    encodeZigzag (List.replicate 10 0) (64 : BitVec 64) [7, 7] = .ok ([0x80, 0x00], 2) ∧
    encodeZigzag (List.replicate 10 0) (-64 : BitVec 64) [7] = .ub := by decide +kernel
