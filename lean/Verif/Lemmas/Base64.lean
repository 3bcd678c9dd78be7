import Verif.Model.Base64
import Verif.Lemmas.BaseN

namespace Base64
open BaseN Base64Spec

/-! ### groups -/

theorem digits3 (a b c : Byte) : digitsOf 6 [a, b, c] =
    [(a >>> 2).toNat, (((a &&& 0x3) <<< 4) ||| (b >>> 4)).toNat,
     (((b &&& 0xF) <<< 2) ||| (c >>> 6)).toNat, (c &&& 0x3F).toNat] := by
  rw [byte_toNat (a >>> 2), byte_toNat (((a &&& 0x3) <<< 4) ||| (b >>> 4)),
    byte_toNat (((b &&& 0xF) <<< 2) ||| (c >>> 6)), byte_toNat (c &&& 0x3F)]
  simp only [digitsOf, List.flatMap_cons, List.flatMap_nil, bitsOf_8, chunksOf, List.length_cons,
    List.length_nil, List.cons_append, List.nil_append, List.append_nil]
  simp [cut, zeroFill, numOf_false]

theorem digits2 (a b : Byte) : digitsOf 6 [a, b] =
    [(a >>> 2).toNat, (((a &&& 0x3) <<< 4) ||| (b >>> 4)).toNat, ((b &&& 0xF) <<< 2).toNat] := by
  rw [byte_toNat (a >>> 2), byte_toNat (((a &&& 0x3) <<< 4) ||| (b >>> 4)),
    byte_toNat ((b &&& 0xF) <<< 2)]
  simp only [digitsOf, List.flatMap_cons, List.flatMap_nil, bitsOf_8, chunksOf, List.length_cons,
    List.length_nil, List.cons_append, List.nil_append, List.append_nil]
  simp [cut, zeroFill, numOf_false]

theorem digits1 (a : Byte) : digitsOf 6 [a] = [(a >>> 2).toNat, ((a &&& 0x3) <<< 4).toNat] := by
  rw [byte_toNat (a >>> 2), byte_toNat ((a &&& 0x3) <<< 4)]
  simp only [digitsOf, List.flatMap_cons, List.flatMap_nil, bitsOf_8, chunksOf, List.length_cons,
    List.length_nil, List.append_nil]
  simp [cut, zeroFill, numOf_false]

theorem bytes4 (a b c d : Byte) (hb : b.toNat < 2^6) (hc : c.toNat < 2^6) (hd : d.toNat < 2^6) :
    bytesOf 6 [a.toNat, b.toNat, c.toNat, d.toNat] =
    [(a <<< 2) ||| (b >>> 4), (b <<< 4) ||| (c >>> 2), (c <<< 6) ||| d] := by
  rw [← ofNat_bits ((a <<< 2) ||| (b >>> 4)), ← ofNat_bits ((b <<< 4) ||| (c >>> 2)),
    ← ofNat_bits ((c <<< 6) ||| d)]
  have e1 := bit_false b 6 6 hb (by omega)
  have e2 := bit_false b 6 7 hb (by omega)
  have e3 := bit_false c 6 6 hc (by omega)
  have e4 := bit_false c 6 7 hc (by omega)
  have e5 := bit_false d 6 6 hd (by omega)
  have e6 := bit_false d 6 7 hd (by omega)
  simp only [bytesOf, List.flatMap_cons, List.flatMap_nil, bitsOf_6, chunksOf, List.length_cons,
    List.length_nil, List.cons_append, List.nil_append, List.append_nil]
  simp at e1 e2 e3 e4 e5 e6
  simp [cut, e1, e2, e3, e4, e5, e6]

theorem bytes3 (a b c : Byte) :
    bytesOf 6 [a.toNat, b.toNat, c.toNat] =
    [(a <<< 2) ||| ((b >>> 4) &&& 0x3), (b <<< 4) ||| ((c >>> 2) &&& 0xF)] := by
  rw [← ofNat_bits ((a <<< 2) ||| ((b >>> 4) &&& 0x3)), ← ofNat_bits ((b <<< 4) ||| ((c >>> 2) &&& 0xF))]
  simp only [bytesOf, List.flatMap_cons, List.flatMap_nil, bitsOf_6, chunksOf, List.length_cons,
    List.length_nil, List.cons_append, List.nil_append, List.append_nil]
  simp [cut]

theorem bytes2 (a b : Byte) :
    bytesOf 6 [a.toNat, b.toNat] = [(a <<< 2) ||| ((b >>> 4) &&& 0x3)] := by
  rw [← ofNat_bits ((a <<< 2) ||| ((b >>> 4) &&& 0x3))]
  simp only [bytesOf, List.flatMap_cons, List.flatMap_nil, bitsOf_6, chunksOf, List.length_cons,
    List.length_nil, List.cons_append, List.nil_append, List.append_nil]
  simp [cut]

/-! ### tables -/

theorem rd_enc (url : Bool) (n : Nat) (h : n < 64) : rd (encodeStr url) n = .ok (char url n) := by
  have : ∀ url, ∀ n : Fin 64, rd (encodeStr url) n.1 = .ok (char url n.1) := by decide +kernel
  exact this url ⟨n, h⟩

/-- What the decoding table holds. -/
def tblVal (url : Bool) (c : Byte) : Byte :=
  match decodeValue? url c with | some v => BitVec.ofNat 8 v | none => 0xFF

theorem rd_dec (url : Bool) (c : Byte) : rd (decodeStr url) c.toNat = .ok (tblVal url c) := by
  revert url c; decide +kernel

theorem tblVal_cases (url : Bool) (c : Byte) :
    (tblVal url c = 0xFF ∧ decodeValue? url c = none) ∨
    (tblVal url c ≠ 0xFF ∧ decodeValue? url c = some (tblVal url c).toNat ∧ (tblVal url c).toNat < 2^6) := by
  revert url c; decide +kernel

theorem value_char (url : Bool) (n : Nat) (h : n < 64) : value? url (char url n) = some n := by
  have : ∀ url, ∀ n : Fin 64, value? url (char url n.1) = some n.1 := by decide +kernel
  exact this url ⟨n, h⟩

theorem decodeValue_char (url : Bool) (n : Nat) (h : n < 64) :
    decodeValue? url (char url n) = some n := by
  have : ∀ url, ∀ n : Fin 64, decodeValue? url (char url n.1) = some n.1 := by decide +kernel
  exact this url ⟨n, h⟩

theorem char_ne_pad (url : Bool) (n : Nat) : char url n ≠ 61#8 := by
  by_cases h : n < 64
  · have : ∀ url, ∀ n : Fin 64, char url n.1 ≠ 61#8 := by decide +kernel
    exact this url ⟨n, h⟩
  · have h1 : ¬ n < 26 := by omega
    have h2 : ¬ n < 52 := by omega
    have h3 : ¬ n < 62 := by omega
    have h4 : ¬ n = 62 := by omega
    simp only [char, h1, h2, h3, h4, if_false]
    cases url <;> decide

/-! ### encoding -/

theorem encodeRaw_length (url : Bool) (bs : List Byte) :
    (encodeRaw url bs).length = (8 * bs.length + 5) / 6 := by
  rw [encodeRaw, List.length_map, digitsOf_length 6 bs (by omega)]; congr 1

theorem encodeRaw_append (url : Bool) (m : Nat) (xs ys : List Byte) (h : xs.length = 3 * m) :
    encodeRaw url (xs ++ ys) = encodeRaw url xs ++ encodeRaw url ys := by
  rw [encodeRaw, digitsOf_append 6 (4*m) xs ys (by omega) (by omega), List.map_append]; rfl

theorem encBody_eq (url : Bool) (buf out W : List Byte) (j : Nat) (hj : 3 * j + 3 ≤ buf.length)
    (hW : W.length = 4 * j) (ho : 4 * j + 4 ≤ out.length) :
    encBody url buf j (over W out) =
      .ok (over (W ++ encodeRaw url ((buf.drop (3*j)).take 3)) out) := by
  have h0 : 3*j < buf.length := by omega
  have h1 : 3*j+1 < buf.length := by omega
  have h2 : 3*j+2 < buf.length := by omega
  have ht : (buf.drop (3*j)).take 3 = [buf[3*j], buf[3*j+1], buf[3*j+2]] := by
    rw [List.drop_eq_getElem_cons h0, List.drop_eq_getElem_cons h1, List.drop_eq_getElem_cons h2]
    rfl
  have hd := digits3 buf[3*j] buf[3*j+1] buf[3*j+2]
  have hlt : ∀ d ∈ digitsOf 6 [buf[3*j], buf[3*j+1], buf[3*j+2]], d < 2 ^ 6 := fun d hm => digitsOf_lt 6 _ (by omega) d hm
  rw [hd] at hlt
  have l1 := hlt (buf[3*j] >>> 2).toNat List.mem_cons_self
  have l2 := hlt (((buf[3*j] &&& 0x3) <<< 4) ||| (buf[3*j+1] >>> 4)).toNat
    (List.mem_cons_of_mem _ (List.mem_cons_self))
  have l3 := hlt (((buf[3*j+1] &&& 0xF) <<< 2) ||| (buf[3*j+2] >>> 6)).toNat
    (List.mem_cons_of_mem _ (List.mem_cons_of_mem _ (List.mem_cons_self)))
  have l4 := hlt (buf[3*j+2] &&& 0x3F).toNat
    (List.mem_cons_of_mem _ (List.mem_cons_of_mem _ (List.mem_cons_of_mem _ (List.mem_cons_self))))
  rw [ht, encodeRaw, hd]
  unfold encBody
  simp only [rd_ok _ _ h0, rd_ok _ _ h1, rd_ok _ _ h2, Res.ok_bind]
  rw [rd_enc url _ l1, rd_enc url _ l2, rd_enc url _ l3, rd_enc url _ l4]
  simp only [Res.ok_bind]
  rw [wr_over _ _ _ _ (by omega) (by omega)]
  simp only [Res.ok_bind]
  rw [wr_over _ _ _ _ (by simp; omega) (by simp; omega)]
  simp only [Res.ok_bind]
  rw [wr_over _ _ _ _ (by simp; omega) (by simp; omega)]
  simp only [Res.ok_bind]
  rw [wr_over _ _ _ _ (by simp; omega) (by simp; omega)]
  simp

theorem enc_loop (url : Bool) (buf out : List Byte) (k j : Nat) (W : List Byte)
    (hb : 3 * (j + k) ≤ buf.length) (hW : W.length = 4 * j) (ho : 4 * (j + k) ≤ out.length) :
    forLoop (encBody url buf) j k (over W out) =
      .ok (over (W ++ encodeRaw url ((buf.drop (3*j)).take (3*k))) out) := by
  induction k generalizing j W with
  | zero => simp [forLoop, encodeRaw, digitsOf]
  | succ k ih =>
    have hlen : ((buf.drop (3*j)).take 3).length = 3 := by simp; omega
    rw [forLoop, encBody_eq url buf out W j (by omega) hW (by omega)]
    simp only [Res.ok_bind]
    rw [ih (j+1) _ (by omega) (by simp [encodeRaw_length, hW]; omega) (by omega)]
    have : (buf.drop (3*j)).take (3*(k+1)) =
        (buf.drop (3*j)).take 3 ++ (buf.drop (3*(j+1))).take (3*k) := by
      rw [show 3*(k+1) = 3 + 3*k by omega, List.take_add, List.drop_drop,
        show 3*j+3 = 3*(j+1) by omega]
    rw [this, encodeRaw_append url 1 _ _ (by omega)]
    simp

/-- Padding characters after the raw text. -/
def padding (url : Bool) (n : Nat) : List Byte :=
  if url then [] else List.replicate ((4 - ((8 * n + 5) / 6) % 4) % 4) 61#8

theorem encTail_eq (url : Bool) (buf out W : List Byte) (n t : Nat) (ht : t < 3)
    (hb : 3 * n + t = buf.length) (hW : W.length = 4 * n)
    (ho : 4 * n + ((8 * t + 5) / 6 + (padding url t).length) ≤ out.length) :
    encTail url buf n t (over W out) =
      .ok (over (W ++ encodeRaw url (buf.drop (3*n)) ++ padding url t) out) := by
  match t, ht with
  | 0, _ =>
    have : buf.drop (3*n) = [] := by rw [List.drop_eq_nil_iff]; omega
    cases url <;> simp [encTail, this, encodeRaw, digitsOf, padding]
  | 1, _ =>
    have h0 : 3*n < buf.length := by omega
    have hd : buf.drop (3*n) = [buf[3*n]] := by
      rw [List.drop_eq_getElem_cons h0, List.drop_of_length_le (by omega)]
    have hdig := digits1 buf[3*n]
    have hlt : ∀ d ∈ digitsOf 6 [buf[3*n]], d < 2 ^ 6 := fun d hm => digitsOf_lt 6 _ (by omega) d hm
    rw [hdig] at hlt
    have l1 := hlt _ (List.mem_cons_self)
    have l2 := hlt ((buf[3*n] &&& 0x3) <<< 4).toNat (List.mem_cons_of_mem _ List.mem_cons_self)
    rw [hd, encodeRaw, hdig]
    have c1 : (1:Nat) ≠ 0 := by decide
    have c2 : ¬ (1:Nat) = 2 := by decide
    simp only [encTail, c2, if_false, rd_ok _ _ h0, Res.ok_bind, rd_enc url _ l1,
      rd_enc url _ l2, ne_eq, c1, not_false_eq_true, if_true]
    rw [wr_over _ _ _ _ (by omega) (by cases url <;> simp [padding] at ho <;> omega)]
    simp only [Res.ok_bind]
    rw [wr_over _ _ _ _ (by simp; omega) (by cases url <;> simp [padding] at ho ⊢ <;> omega)]
    simp only [Res.ok_bind]
    cases url
    · simp [padding] at ho
      simp only [Bool.not_false, if_true]
      rw [wr_over _ _ _ _ (by simp; omega) (by simp; omega)]
      simp only [Res.ok_bind]
      rw [wr_over _ _ _ _ (by simp; omega) (by simp; omega)]
      simp [padding]; rfl
    · simp [padding]
  | 2, _ =>
    have h0 : 3*n < buf.length := by omega
    have h1 : 3*n+1 < buf.length := by omega
    have hd : buf.drop (3*n) = [buf[3*n], buf[3*n+1]] := by
      rw [List.drop_eq_getElem_cons h0, List.drop_eq_getElem_cons h1,
        List.drop_of_length_le (by omega)]
    have hdig := digits2 buf[3*n] buf[3*n+1]
    have hlt : ∀ d ∈ digitsOf 6 [buf[3*n], buf[3*n+1]], d < 2 ^ 6 := fun d hm => digitsOf_lt 6 _ (by omega) d hm
    rw [hdig] at hlt
    have l1 := hlt _ (List.mem_cons_self)
    have l2 := hlt (((buf[3*n] &&& 0x3) <<< 4) ||| (buf[3*n+1] >>> 4)).toNat
      (List.mem_cons_of_mem _ List.mem_cons_self)
    have l3 := hlt ((buf[3*n+1] &&& 0xF) <<< 2).toNat
      (List.mem_cons_of_mem _ (List.mem_cons_of_mem _ List.mem_cons_self))
    rw [hd, encodeRaw, hdig]
    have c1 : (2:Nat) ≠ 0 := by decide
    simp only [encTail, if_true, rd_ok _ _ h0, rd_ok _ _ h1, Res.ok_bind, rd_enc url _ l1,
      rd_enc url _ l2, rd_enc url _ l3, ne_eq, c1, not_false_eq_true]
    rw [wr_over _ _ _ _ (by omega) (by cases url <;> simp [padding] at ho <;> omega)]
    simp only [Res.ok_bind]
    rw [wr_over _ _ _ _ (by simp; omega) (by cases url <;> simp [padding] at ho ⊢ <;> omega)]
    simp only [Res.ok_bind]
    rw [wr_over _ _ _ _ (by simp; omega) (by cases url <;> simp [padding] at ho ⊢ <;> omega)]
    simp only [Res.ok_bind]
    cases url
    · simp [padding] at ho
      simp only [Bool.not_false, if_true]
      rw [wr_over _ _ _ _ (by simp; omega) (by simp; omega)]
      simp [padding]; rfl
    · simp [padding]

theorem toBase64Impl_eq (buf out : List Byte) (url : Bool)
    (ho : (8 * buf.length + 5) / 6 + (padding url buf.length).length ≤ out.length) :
    toBase64Impl buf buf.length out url =
      .ok (over (encodeRaw url buf ++ padding url buf.length) out) := by
  have hpad : padding url buf.length = padding url (buf.length % 3) := by
    unfold padding
    have : (8 * buf.length + 5) / 6 = 4 * (buf.length / 3) + (8 * (buf.length % 3) + 5) / 6 := by
      omega
    rw [this, Nat.mul_add_mod]
  unfold toBase64Impl
  have e0 := enc_loop url buf out (buf.length / 3) 0 [] (by omega) (by simp) (by omega)
  simp only [over_nil, Nat.mul_zero, List.drop_zero, List.nil_append] at e0
  rw [e0]
  simp only [Res.ok_bind]
  have hlen : (List.take (3 * (buf.length / 3)) buf).length = 3 * (buf.length / 3) := by
    simp; omega
  rw [encTail_eq url buf out _ (buf.length / 3) (buf.length % 3) (by omega) (by omega)
    (by rw [encodeRaw_length, hlen]; omega) (by rw [← hpad]; omega)]
  rw [hpad, ← encodeRaw_append url _ _ _ hlen, List.take_append_drop]

/-! ### decoding -/

theorem decodeRaw_cons4 (url : Bool) (c0 c1 c2 c3 : Byte) (rest : List Byte) :
    decodeRaw url (c0 :: c1 :: c2 :: c3 :: rest) =
      if tblVal url c0 = 0xFF ∨ tblVal url c1 = 0xFF ∨ tblVal url c2 = 0xFF ∨ tblVal url c3 = 0xFF then []
      else [(tblVal url c0 <<< 2) ||| (tblVal url c1 >>> 4), (tblVal url c1 <<< 4) ||| (tblVal url c2 >>> 2),
        (tblVal url c2 <<< 6) ||| tblVal url c3] ++ decodeRaw url rest := by
  unfold decodeRaw
  rw [show c0 :: c1 :: c2 :: c3 :: rest = [c0, c1, c2, c3] ++ rest from rfl,
    legalGroups_cons 4 _ _ _ (by omega) rfl]
  rcases tblVal_cases url c0 with ⟨a, b⟩ | ⟨a, b, v0⟩
  · simp [a, b]; rfl
  rcases tblVal_cases url c1 with ⟨a', b'⟩ | ⟨a1, b1, v1⟩
  · simp [a', b']; rfl
  rcases tblVal_cases url c2 with ⟨a', b'⟩ | ⟨a2, b2, v2⟩
  · simp [a', b']; rfl
  rcases tblVal_cases url c3 with ⟨a', b'⟩ | ⟨a3, b3, v3⟩
  · simp [a', b']; rfl
  rw [if_pos (by simp [b, b1, b2, b3]), if_neg (by simp only [a, a1, a2, a3, or_self, not_false_eq_true])]
  rw [bytesOf_append 6 3 _ _ (by simp [b, b1, b2, b3])]
  simp only [List.filterMap_cons, b, b1, b2, b3, List.filterMap_nil]
  rw [bytes4 _ _ _ _ v1 v2 v3]

theorem decodeRaw_3 (url : Bool) (c0 c1 c2 : Byte) :
    decodeRaw url [c0, c1, c2] =
      if tblVal url c0 = 0xFF ∨ tblVal url c1 = 0xFF ∨ tblVal url c2 = 0xFF then []
      else [(tblVal url c0 <<< 2) ||| ((tblVal url c1 >>> 4) &&& 0x3),
        (tblVal url c1 <<< 4) ||| ((tblVal url c2 >>> 2) &&& 0xF)] := by
  unfold decodeRaw
  rw [legalGroups_short 4 _ _ (by simp) (by simp)]
  rcases tblVal_cases url c0 with ⟨a, b⟩ | ⟨a, b, v0⟩
  · simp [a, b]; rfl
  rcases tblVal_cases url c1 with ⟨a', b'⟩ | ⟨a1, b1, v1⟩
  · simp [a', b']; rfl
  rcases tblVal_cases url c2 with ⟨a', b'⟩ | ⟨a2, b2, v2⟩
  · simp [a', b']; rfl
  rw [if_pos (by simp [b, b1, b2]), if_neg (by simp only [a, a1, a2, or_self, not_false_eq_true])]
  simp only [List.filterMap_cons, b, b1, b2, List.filterMap_nil]
  rw [bytes3]

theorem decodeRaw_2 (url : Bool) (c0 c1 : Byte) :
    decodeRaw url [c0, c1] =
      if tblVal url c0 = 0xFF ∨ tblVal url c1 = 0xFF then []
      else [(tblVal url c0 <<< 2) ||| ((tblVal url c1 >>> 4) &&& 0x3)] := by
  unfold decodeRaw
  rw [legalGroups_short 4 _ _ (by simp) (by simp)]
  rcases tblVal_cases url c0 with ⟨a, b⟩ | ⟨a, b, v0⟩
  · simp [a, b]; rfl
  rcases tblVal_cases url c1 with ⟨a', b'⟩ | ⟨a1, b1, v1⟩
  · simp [a', b']; rfl
  rw [if_pos (by simp [b, b1]), if_neg (by simp only [a, a1, or_self, not_false_eq_true])]
  simp only [List.filterMap_cons, b, b1, List.filterMap_nil]
  rw [bytes2]

theorem decodeRaw_1 (url : Bool) (c0 : Byte) : decodeRaw url [c0] = [] := by
  unfold decodeRaw
  apply bytesOf_short
  rw [legalGroups_short 4 _ _ (by simp) (by simp)]
  split
  · have := List.length_filterMap_le (decodeValue? url) [c0]
    simp only [List.length_singleton] at this; omega
  · simp

theorem decodeRaw_0 (url : Bool) : decodeRaw url [] = [] := rfl

theorem decTail_eq (url : Bool) (str buf W : List Byte) (n t : Nat) (ht : t < 4)
    (hs : 4 * n + t ≤ str.length) (hW : W.length = 3 * n)
    (hb : 3 * n + fromBase64UrlsafeLength t ≤ buf.length) :
    decTail url str n t (over W buf) =
      .ok (over (W ++ decodeRaw url ((str.drop (4*n)).take t)) buf,
        3 * n + (decodeRaw url ((str.drop (4*n)).take t)).length) := by
  match t, ht with
  | 0, _ => simp [decTail, decodeRaw_0]
  | 1, _ =>
    have h0 : 4*n < str.length := by omega
    have hl : (str.drop (4*n)).take 1 = [str[4*n]] := by
      rw [List.drop_eq_getElem_cons h0]; rfl
    rw [hl, decodeRaw_1]
    simp [decTail]
  | 2, _ =>
    have h0 : 4*n < str.length := by omega
    have h1 : 4*n+1 < str.length := by omega
    simp [fromBase64UrlsafeLength] at hb
    have hl : (str.drop (4*n)).take 2 = [str[4*n], str[4*n+1]] := by
      rw [List.drop_eq_getElem_cons h0, List.drop_eq_getElem_cons h1]; rfl
    rw [hl, decodeRaw_2]
    simp only [decTail, if_true, rd_ok _ _ h0, rd_ok _ _ h1, Res.ok_bind, rd_dec]
    split
    · simp
    · rw [wr_over _ _ _ _ (by omega) (by omega)]; simp
  | 3, _ =>
    have h0 : 4*n < str.length := by omega
    have h1 : 4*n+1 < str.length := by omega
    have h2 : 4*n+2 < str.length := by omega
    simp [fromBase64UrlsafeLength] at hb
    have hl : (str.drop (4*n)).take 3 = [str[4*n], str[4*n+1], str[4*n+2]] := by
      rw [List.drop_eq_getElem_cons h0, List.drop_eq_getElem_cons h1,
        List.drop_eq_getElem_cons h2]; rfl
    rw [hl, decodeRaw_3]
    have c1 : ¬ (3:Nat) = 2 := by decide
    simp only [decTail, c1, if_false, if_true, rd_ok _ _ h0, rd_ok _ _ h1, rd_ok _ _ h2, Res.ok_bind,
      rd_dec]
    split
    · simp
    · rw [wr_over _ _ _ _ (by omega) (by omega)]
      simp only [Res.ok_bind]
      rw [wr_over _ _ _ _ (by simp; omega) (by simp; omega)]; simp

theorem dec_loop (url : Bool) (str buf : List Byte) (N t k j : Nat) (W : List Byte) (ht : t < 4)
    (hN : j + k = N) (hs : 4 * N + t ≤ str.length) (hW : W.length = 3 * j)
    (hb : 3 * N + fromBase64UrlsafeLength t ≤ buf.length) :
    (do
      match ← forLoopB (decBody url str) j k (over W buf) with
      | .stop r => pure r
      | .next buf => decTail url str N t buf) =
    .ok (over (W ++ decodeRaw url ((str.drop (4*j)).take (4*k+t))) buf,
        3 * j + (decodeRaw url ((str.drop (4*j)).take (4*k+t))).length) := by
  induction k generalizing j W with
  | zero =>
    have : j = N := by omega
    subst this
    simpa [forLoopB] using decTail_eq url str buf W j t ht hs hW hb
  | succ k ih =>
    have h0 : 4*j < str.length := by omega
    have h1 : 4*j+1 < str.length := by omega
    have h2 : 4*j+2 < str.length := by omega
    have h3 : 4*j+3 < str.length := by omega
    have hl : (str.drop (4*j)).take (4*(k+1)+t) = str[4*j] :: str[4*j+1] :: str[4*j+2] ::
        str[4*j+3] :: (str.drop (4*(j+1))).take (4*k+t) := by
      rw [List.drop_eq_getElem_cons h0, List.drop_eq_getElem_cons h1,
        List.drop_eq_getElem_cons h2, List.drop_eq_getElem_cons h3,
        show 4*(k+1)+t = (4*k+t)+1+1+1+1 by omega]
      simp only [List.take_succ_cons]
      rw [show 4*j+3+1 = 4*(j+1) by omega]
    rw [hl, decodeRaw_cons4]
    simp only [forLoopB, decBody, rd_ok _ _ h0, rd_ok _ _ h1, rd_ok _ _ h2, rd_ok _ _ h3,
      Res.ok_bind, rd_dec]
    split
    · simp
    · rw [wr_over _ _ _ _ (by omega) (by omega)]
      simp only [Res.ok_bind]
      rw [wr_over _ _ _ _ (by simp; omega) (by simp; omega)]
      simp only [Res.ok_bind]
      rw [wr_over _ _ _ _ (by simp; omega) (by simp; omega)]
      simp only [Res.ok_bind, Res.pure_eq]
      have := ih (j+1) (W ++ [(tblVal url str[4*j] <<< 2) ||| (tblVal url str[4*j+1] >>> 4)] ++
        [(tblVal url str[4*j+1] <<< 4) ||| (tblVal url str[4*j+2] >>> 2)] ++
        [(tblVal url str[4*j+2] <<< 6) ||| tblVal url str[4*j+3]]) (by omega) (by simp; omega)
      simp only [Res.pure_eq] at this
      rw [this]
      simp; omega

theorem fromBase64Impl_eq (str buf : List Byte) (n : Nat) (url : Bool) (hn : n ≤ str.length)
    (hb : fromBase64UrlsafeLength n ≤ buf.length) :
    fromBase64Impl str n buf url =
      .ok (over (decodeRaw url (str.take n)) buf, (decodeRaw url (str.take n)).length) := by
  have := dec_loop url str buf (n/4) (n%4) (n/4) 0 [] (by omega) (by omega) (by omega) (by simp) (by
    unfold fromBase64UrlsafeLength at *; simp only at *
    split at hb <;> split <;> (try split at hb) <;> (try split) <;> omega)
  simp only [over_nil, Nat.mul_zero, List.drop_zero, List.nil_append, Nat.zero_add,
    show 4 * (n/4) + n % 4 = n by omega] at this
  exact this

theorem decodeRaw_length_le (url : Bool) (cs : List Byte) :
    (decodeRaw url cs).length ≤ fromBase64UrlsafeLength cs.length := by
  have : ∀ n, ∀ cs : List Byte, cs.length ≤ n →
      (decodeRaw url cs).length ≤ fromBase64UrlsafeLength cs.length := by
    intro n
    induction n with
    | zero => intro cs h; have : cs = [] := by simpa using h
              subst this; simp [decodeRaw_0]
    | succ n ih =>
      intro cs h
      match cs with
      | [] => simp [decodeRaw_0]
      | [a] => simp [decodeRaw_1]
      | [a, b] => rw [decodeRaw_2]; split <;> simp [fromBase64UrlsafeLength]
      | [a, b, c] => rw [decodeRaw_3]; split <;> simp [fromBase64UrlsafeLength]
      | a :: b :: c :: d :: r =>
        rw [decodeRaw_cons4]
        have := ih r (by simp at h; omega)
        split
        · simp
        · simp only [List.length_append, List.length_cons, List.length_nil]
          unfold fromBase64UrlsafeLength at *
          simp only at *
          split at this <;> split <;> (try split at this) <;> (try split) <;> omega
  exact this _ cs (Nat.le_refl _)

theorem decodeRaw_encodeRaw (url : Bool) (bs : List Byte) : decodeRaw url (encodeRaw url bs) = bs := by
  unfold decodeRaw encodeRaw
  rw [legalGroups_map 4 _ _ _ (by omega)
    (fun d hd => decodeValue_char url d (digitsOf_lt 6 bs (by omega) d hd))]
  exact bytesOf_digitsOf 6 bs (by omega) (by omega)

/-! ### stripping -/

theorem strip_take (cs : List Byte) : ∃ n, n ≤ cs.length ∧ strip cs = cs.take n := by
  unfold strip
  split
  · split
    · exact ⟨cs.length - 1 - 1, by omega, by
        simp [List.dropLast_eq_take, List.take_take]⟩
    · exact ⟨cs.length - 1, by omega, by simp [List.dropLast_eq_take]⟩
  · exact ⟨cs.length, Nat.le_refl _, by simp⟩

theorem stripLen_eq (str : List Byte) (n : Nat) (hn : n ≤ str.length) :
    stripLen str n = .ok (strip (str.take n)).length := by
  have hc : chr '=' = 61#8 := by decide
  unfold stripLen strip
  rw [hc]
  match n with
  | 0 => simp
  | n+1 =>
    have h : n < str.length := by omega
    have hg : (str.take (n+1)).getLast? = some str[n] := by
      rw [List.take_succ_eq_append_getElem h]; exact List.getLast?_concat
    have hd : (str.take (n+1)).dropLast = str.take n := by
      rw [List.take_succ_eq_append_getElem h]; exact List.dropLast_concat
    simp only [Nat.zero_lt_succ, if_true, Nat.add_sub_cancel, rd_ok _ _ h, Res.ok_bind, hg, hd,
      Option.some.injEq]
    split
    · match n with
      | 0 => simp
      | m+1 =>
        have h' : m < str.length := by omega
        have hg' : (str.take (m+1)).getLast? = some str[m] := by
          rw [List.take_succ_eq_append_getElem h']; exact List.getLast?_concat
        have hd' : (str.take (m+1)).dropLast = str.take m := by
          rw [List.take_succ_eq_append_getElem h']; exact List.dropLast_concat
        simp only [Nat.zero_lt_succ, if_true, Nat.add_sub_cancel, rd_ok _ _ h', Res.ok_bind, hg', hd',
          Option.some.injEq]
        split <;> simp <;> omega
    · simp; omega

theorem fromBase64_eq (str buf : List Byte) (n : Nat) (hn : n ≤ str.length)
    (hb : fromBase64UrlsafeLength (strip (str.take n)).length ≤ buf.length) :
    fromBase64 str n buf = .ok (over (decodeRaw false (strip (str.take n))) buf,
      (decodeRaw false (strip (str.take n))).length) := by
  unfold fromBase64
  rw [stripLen_eq str n hn]
  simp only [Res.ok_bind]
  obtain ⟨m, hm, he⟩ := strip_take (str.take n)
  simp at hm
  have hl : (strip (str.take n)).length = m := by rw [he]; simp; omega
  rw [hl] at hb ⊢
  rw [fromBase64Impl_eq str buf m false (by omega) hb, he, List.take_take, Nat.min_eq_left (by omega)]

theorem strip_encode (bs : List Byte) : strip (encode bs) = encodeRaw false bs := by
  have hlast : (encodeRaw false bs).getLast? ≠ some 61#8 := by
    intro h
    have := List.mem_of_getLast? h
    simp only [encodeRaw, List.mem_map] at this
    obtain ⟨d, _, hd⟩ := this
    exact char_ne_pad false d hd
  unfold encode
  simp only
  generalize hr : (4 - (encodeRaw false bs).length % 4) % 4 = r
  have hl := encodeRaw_length false bs
  have : r = 0 ∨ r = 1 ∨ r = 2 := by omega
  rcases this with rfl | rfl | rfl
  · simp [strip, hlast]
  · simp [strip, hlast]
  · have e : encodeRaw false bs ++ List.replicate 2 61#8 = (encodeRaw false bs ++ [61#8]) ++ [61#8] := by
      simp [List.replicate]
    rw [e]
    simp [strip]

end Base64
