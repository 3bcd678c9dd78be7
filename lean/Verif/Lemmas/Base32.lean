import Verif.Model.Base32
import Verif.Lemmas.BaseN

namespace Base32
open BaseN Base32Spec

/-! ### groups -/

theorem digits5 (a b c d e : Byte) : digitsOf 5 [a, b, c, d, e] =
    ([a >>> 3, ((a &&& 7#8) <<< 2) ||| (b >>> 6), (b >>> 1) &&& 0x1F#8,
     ((b &&& 1#8) <<< 4) ||| (c >>> 4), ((c &&& 0xF#8) <<< 1) ||| (d >>> 7),
     (d >>> 2) &&& 0x1F#8, ((d &&& 3#8) <<< 3) ||| ((e >>> 5) &&& 7#8), e &&& 0x1F#8] : List Byte).map
      BitVec.toNat := by
  simp only [List.map_cons, List.map_nil, byte_toNat]
  simp only [digitsOf, List.flatMap_cons, List.flatMap_nil, bitsOf_8, chunksOf, List.length_cons,
    List.length_nil, List.cons_append, List.nil_append, List.append_nil]
  simp [cut, zeroFill, numOf_false]

theorem digits4 (a b c d : Byte) : digitsOf 5 [a, b, c, d] =
    ([a >>> 3, ((a &&& 7#8) <<< 2) ||| (b >>> 6), (b >>> 1) &&& 0x1F#8,
     ((b &&& 1#8) <<< 4) ||| (c >>> 4), ((c &&& 0xF#8) <<< 1) ||| (d >>> 7),
     (d >>> 2) &&& 0x1F#8, (d &&& 3#8) <<< 3] : List Byte).map BitVec.toNat := by
  simp only [List.map_cons, List.map_nil, byte_toNat]
  simp only [digitsOf, List.flatMap_cons, List.flatMap_nil, bitsOf_8, chunksOf, List.length_cons,
    List.length_nil, List.cons_append, List.nil_append, List.append_nil]
  simp [cut, zeroFill, numOf_false]

theorem digits3 (a b c : Byte) : digitsOf 5 [a, b, c] =
    ([a >>> 3, ((a &&& 7#8) <<< 2) ||| (b >>> 6), (b >>> 1) &&& 0x1F#8,
     ((b &&& 1#8) <<< 4) ||| (c >>> 4), (c &&& 0xF#8) <<< 1] : List Byte).map BitVec.toNat := by
  simp only [List.map_cons, List.map_nil, byte_toNat]
  simp only [digitsOf, List.flatMap_cons, List.flatMap_nil, bitsOf_8, chunksOf, List.length_cons,
    List.length_nil, List.cons_append, List.nil_append, List.append_nil]
  simp [cut, zeroFill, numOf_false]

theorem digits2 (a b : Byte) : digitsOf 5 [a, b] =
    ([a >>> 3, ((a &&& 7#8) <<< 2) ||| (b >>> 6), (b >>> 1) &&& 0x1F#8,
     (b &&& 1#8) <<< 4] : List Byte).map BitVec.toNat := by
  simp only [List.map_cons, List.map_nil, byte_toNat]
  simp only [digitsOf, List.flatMap_cons, List.flatMap_nil, bitsOf_8, chunksOf, List.length_cons,
    List.length_nil, List.cons_append, List.nil_append, List.append_nil]
  simp [cut, zeroFill, numOf_false]

theorem digits1 (a : Byte) : digitsOf 5 [a] =
    ([a >>> 3, (a &&& 7#8) <<< 2] : List Byte).map BitVec.toNat := by
  simp only [List.map_cons, List.map_nil, byte_toNat]
  simp only [digitsOf, List.flatMap_cons, List.flatMap_nil, bitsOf_8, chunksOf, List.length_cons,
    List.length_nil, List.append_nil]
  simp [cut, zeroFill, numOf_false]

theorem hi_bits : ∀ x : Byte, x.toNat < 2^5 → x[5] = false ∧ x[6] = false ∧ x[7] = false := by
  decide +kernel

/-- The five bytes of a complete group, as the C code computes them. -/
def group5 (a b c d e f g h : Byte) : List Byte :=
  [(a <<< 3) ||| (b >>> 2), (b <<< 6) ||| (c <<< 1) ||| (d >>> 4), (d <<< 4) ||| (e >>> 1),
   (e <<< 7) ||| (f <<< 2) ||| (g >>> 3), (g <<< 5) ||| h]

theorem bytes8 (a b c d e f g h : Byte) (ha : a.toNat < 2^5) (hb : b.toNat < 2^5)
    (hc : c.toNat < 2^5) (hd : d.toNat < 2^5) (he : e.toNat < 2^5) (hf : f.toNat < 2^5)
    (hg : g.toNat < 2^5) (hh : h.toNat < 2^5) :
    bytesOf 5 ([a, b, c, d, e, f, g, h].map BitVec.toNat) = group5 a b c d e f g h := by
  have H := hi_bits
  obtain ⟨a5, a6, a7⟩ := H a ha
  obtain ⟨b5, b6, b7⟩ := H b hb
  obtain ⟨c5, c6, c7⟩ := H c hc
  obtain ⟨d5, d6, d7⟩ := H d hd
  obtain ⟨e5, e6, e7⟩ := H e he
  obtain ⟨f5, f6, f7⟩ := H f hf
  obtain ⟨g5, g6, g7⟩ := H g hg
  obtain ⟨h5, h6, h7⟩ := H h hh
  unfold group5
  rw [← ofNat_bits ((a <<< 3) ||| (b >>> 2)), ← ofNat_bits ((b <<< 6) ||| (c <<< 1) ||| (d >>> 4)),
    ← ofNat_bits ((d <<< 4) ||| (e >>> 1)), ← ofNat_bits ((e <<< 7) ||| (f <<< 2) ||| (g >>> 3)),
    ← ofNat_bits ((g <<< 5) ||| h)]
  simp only [bytesOf, List.map_cons, List.map_nil, List.flatMap_cons, List.flatMap_nil, bitsOf_5,
    chunksOf, List.length_cons, List.length_nil, List.cons_append, List.nil_append, List.append_nil]
  simp [cut, *]

/-- Bytes of an incomplete group, as the C code computes them. -/
def tailBytes : List Byte → List Byte
  | [a, b] => [(a <<< 3) ||| (b >>> 2)]
  | [a, b, c, d] => [(a <<< 3) ||| (b >>> 2), (b <<< 6) ||| (c <<< 1) ||| (d >>> 4)]
  | [a, b, c, d, e] => [(a <<< 3) ||| (b >>> 2), (b <<< 6) ||| (c <<< 1) ||| (d >>> 4),
      (d <<< 4) ||| (e >>> 1)]
  | [a, b, c, d, e, f, g] => [(a <<< 3) ||| (b >>> 2), (b <<< 6) ||| (c <<< 1) ||| (d >>> 4),
      (d <<< 4) ||| (e >>> 1), (e <<< 7) ||| (f <<< 2) ||| (g >>> 3)]
  | _ => []

theorem bytes_tail (vs : List Byte) (h : ∀ v ∈ vs, v.toNat < 2^5)
    (hl : vs.length = 0 ∨ vs.length = 2 ∨ vs.length = 4 ∨ vs.length = 5 ∨ vs.length = 7) :
    bytesOf 5 (vs.map BitVec.toNat) = tailBytes vs := by
  have H := hi_bits
  match vs, hl with
  | [], _ => rfl
  | [a, b], _ =>
    obtain ⟨b5, b6, b7⟩ := H b (h b (by simp))
    simp only [tailBytes]
    rw [← ofNat_bits ((a <<< 3) ||| (b >>> 2))]
    simp only [bytesOf, List.map_cons, List.map_nil, List.flatMap_cons, List.flatMap_nil, bitsOf_5,
      chunksOf, List.length_cons, List.length_nil, List.cons_append, List.nil_append, List.append_nil]
    simp [cut, *]
  | [a, b, c, d], _ =>
    obtain ⟨b5, b6, b7⟩ := H b (h b (by simp))
    obtain ⟨c5, c6, c7⟩ := H c (h c (by simp))
    obtain ⟨d5, d6, d7⟩ := H d (h d (by simp))
    simp only [tailBytes]
    rw [← ofNat_bits ((a <<< 3) ||| (b >>> 2)), ← ofNat_bits ((b <<< 6) ||| (c <<< 1) ||| (d >>> 4))]
    simp only [bytesOf, List.map_cons, List.map_nil, List.flatMap_cons, List.flatMap_nil, bitsOf_5,
      chunksOf, List.length_cons, List.length_nil, List.cons_append, List.nil_append, List.append_nil]
    simp [cut, *]
  | [a, b, c, d, e], _ =>
    obtain ⟨b5, b6, b7⟩ := H b (h b (by simp))
    obtain ⟨c5, c6, c7⟩ := H c (h c (by simp))
    obtain ⟨d5, d6, d7⟩ := H d (h d (by simp))
    obtain ⟨e5, e6, e7⟩ := H e (h e (by simp))
    simp only [tailBytes]
    rw [← ofNat_bits ((a <<< 3) ||| (b >>> 2)), ← ofNat_bits ((b <<< 6) ||| (c <<< 1) ||| (d >>> 4)),
      ← ofNat_bits ((d <<< 4) ||| (e >>> 1))]
    simp only [bytesOf, List.map_cons, List.map_nil, List.flatMap_cons, List.flatMap_nil, bitsOf_5,
      chunksOf, List.length_cons, List.length_nil, List.cons_append, List.nil_append, List.append_nil]
    simp [cut, *]
  | [a, b, c, d, e, f, g], _ =>
    obtain ⟨b5, b6, b7⟩ := H b (h b (by simp))
    obtain ⟨c5, c6, c7⟩ := H c (h c (by simp))
    obtain ⟨d5, d6, d7⟩ := H d (h d (by simp))
    obtain ⟨e5, e6, e7⟩ := H e (h e (by simp))
    obtain ⟨f5, f6, f7⟩ := H f (h f (by simp))
    obtain ⟨g5, g6, g7⟩ := H g (h g (by simp))
    simp only [tailBytes]
    rw [← ofNat_bits ((a <<< 3) ||| (b >>> 2)), ← ofNat_bits ((b <<< 6) ||| (c <<< 1) ||| (d >>> 4)),
      ← ofNat_bits ((d <<< 4) ||| (e >>> 1)), ← ofNat_bits ((e <<< 7) ||| (f <<< 2) ||| (g >>> 3))]
    simp only [bytesOf, List.map_cons, List.map_nil, List.flatMap_cons, List.flatMap_nil, bitsOf_5,
      chunksOf, List.length_cons, List.length_nil, List.cons_append, List.nil_append, List.append_nil]
    simp [cut, *]
  | [_], hl => simp at hl
  | [_, _, _], hl => simp at hl
  | [_, _, _, _, _, _], hl => simp at hl
  | _ :: _ :: _ :: _ :: _ :: _ :: _ :: _ :: _, hl => simp only [List.length_cons] at hl; omega

/-! ### encoding -/

/-- Character for a digit, or the digit itself in raw mode. -/
def encChar (raw : Bool) (n : Nat) : Byte := if raw then BitVec.ofNat 8 n else char n

theorem rd_enc (raw : Bool) (n : Nat) (h : n < 32) : rd (encodeStr raw) n = .ok (encChar raw n) := by
  have : ∀ raw, ∀ n : Fin 32, rd (encodeStr raw) n.1 = .ok (encChar raw n.1) := by decide +kernel
  exact this raw ⟨n, h⟩

/-- Unpadded text. -/
def encText (raw : Bool) (bs : List Byte) : List Byte := (digitsOf 5 bs).map (encChar raw)

theorem encText_length (raw : Bool) (bs : List Byte) :
    (encText raw bs).length = (8 * bs.length + 4) / 5 := by
  rw [encText, List.length_map, digitsOf_length 5 bs (by omega)]; congr 1

theorem encText_append (raw : Bool) (m : Nat) (xs ys : List Byte) (h : xs.length = 5 * m) :
    encText raw (xs ++ ys) = encText raw xs ++ encText raw ys := by
  rw [encText, digitsOf_append 5 (8*m) xs ys (by omega) (by omega), List.map_append]; rfl

/-- Looking up the digits of a byte list. -/
theorem lookups_enc (raw : Bool) (bs ds : List Byte) (h : digitsOf 5 bs = ds.map BitVec.toNat) :
    lookups (encodeStr raw) ds = .ok (encText raw bs) := by
  rw [lookups_ok (encodeStr raw) (encChar raw) 32 (fun n hn => rd_enc raw n hn) ds (by
    intro d hd
    exact digitsOf_lt 5 bs (by omega) _ (by rw [h]; exact List.mem_map_of_mem hd))]
  rw [encText, h, List.map_map]; rfl

theorem encBody_eq (raw : Bool) (buf out W : List Byte) (j : Nat) (hj : 5 * j + 5 ≤ buf.length)
    (hW : W.length = 8 * j) (ho : 8 * j + 8 ≤ out.length) :
    encBody raw buf j (over W out) =
      .ok (over (W ++ encText raw ((buf.drop (5*j)).take 5)) out) := by
  have h0 : 5*j < buf.length := by omega
  have h1 : 5*j+1 < buf.length := by omega
  have h2 : 5*j+2 < buf.length := by omega
  have h3 : 5*j+3 < buf.length := by omega
  have h4 : 5*j+4 < buf.length := by omega
  have ht : (buf.drop (5*j)).take 5 = [buf[5*j], buf[5*j+1], buf[5*j+2], buf[5*j+3], buf[5*j+4]] := by
    rw [List.drop_eq_getElem_cons h0, List.drop_eq_getElem_cons h1, List.drop_eq_getElem_cons h2,
      List.drop_eq_getElem_cons h3, List.drop_eq_getElem_cons h4]
    rfl
  unfold encBody
  simp only [rd_ok _ _ h0, rd_ok _ _ h1, rd_ok _ _ h2, rd_ok _ _ h3, rd_ok _ _ h4, Res.ok_bind]
  rw [lookups_enc raw _ _ (digits5 _ _ _ _ _)]
  simp only [Res.ok_bind]
  rw [ht, wrs_over _ _ _ _ hW.symm (by rw [encText_length]; simp; omega)]

theorem enc_loop (raw : Bool) (buf out : List Byte) (k j : Nat) (W : List Byte)
    (hb : 5 * (j + k) ≤ buf.length) (hW : W.length = 8 * j) (ho : 8 * (j + k) ≤ out.length) :
    forLoop (encBody raw buf) j k (over W out) =
      .ok (over (W ++ encText raw ((buf.drop (5*j)).take (5*k))) out) := by
  induction k generalizing j W with
  | zero => simp [forLoop, encText, digitsOf]
  | succ k ih =>
    have hlen : ((buf.drop (5*j)).take 5).length = 5 := by simp; omega
    rw [forLoop, encBody_eq raw buf out W j (by omega) hW (by omega)]
    simp only [Res.ok_bind]
    rw [ih (j+1) _ (by omega) (by simp [encText_length, hW]; omega) (by omega)]
    have : (buf.drop (5*j)).take (5*(k+1)) =
        (buf.drop (5*j)).take 5 ++ (buf.drop (5*(j+1))).take (5*k) := by
      rw [show 5*(k+1) = 5 + 5*k by omega, List.take_add, List.drop_drop,
        show 5*j+5 = 5*(j+1) by omega]
    rw [this, encText_append raw 1 _ _ (by omega)]
    simp

/-- Padding characters after the raw text. -/
def padding (raw : Bool) (n : Nat) : List Byte :=
  if raw then [] else List.replicate ((8 - ((8 * n + 4) / 5) % 8) % 8) 61#8

theorem putTail_eq (raw : Bool) (out W bs ds : List Byte) (p : Nat) (hp : p = W.length)
    (h : digitsOf 5 bs = ds.map BitVec.toNat) (h8 : bs.length < 5) (h0 : bs.length ≠ 0)
    (ho : W.length + (encText raw bs).length + (padding raw bs.length).length ≤ out.length) :
    putTail raw (over W out) p ds = .ok (over (W ++ encText raw bs ++ padding raw bs.length) out,
      (encText raw bs).length + (padding raw bs.length).length) := by
  have hlen : ds.length = (encText raw bs).length := by rw [encText, List.length_map, h, List.length_map]
  have hd : ds.length = (8 * bs.length + 4) / 5 := by rw [hlen, encText_length]
  have hc : chr '=' = 61#8 := by decide
  unfold putTail
  rw [lookups_enc raw bs ds h]
  simp only [Res.ok_bind]
  rw [wrs_over _ _ _ _ hp (by omega)]
  simp only [Res.ok_bind]
  cases raw
  · have hpad : padding false bs.length = List.replicate (8 - ds.length) 61#8 := by
      simp only [padding, Bool.false_eq_true, if_false]; congr 1; omega
    rw [hpad] at ho ⊢
    simp only [Bool.not_false, if_true, hc]
    rw [wrs_over _ _ _ _ (by simp [hp, hlen]) (by simp at ho ⊢; omega)]
    simp; omega
  · simp [padding, hlen]

theorem encTail_eq (raw : Bool) (buf out W : List Byte) (n t : Nat) (ht : t < 5)
    (hb : 5 * n + t = buf.length) (hW : W.length = 8 * n)
    (ho : 8 * n + ((8 * t + 4) / 5 + (padding raw t).length) ≤ out.length) :
    encTail raw buf n t (over W out) =
      .ok (over (W ++ encText raw (buf.drop (5*n)) ++ padding raw t) out,
        (8 * t + 4) / 5 + (padding raw t).length) := by
  match t, ht with
  | 0, _ =>
    have : buf.drop (5*n) = [] := by rw [List.drop_eq_nil_iff]; omega
    cases raw <;> simp [encTail, this, encText, digitsOf, padding]
  | 1, _ =>
    have h0 : 5*n < buf.length := by omega
    have hd : buf.drop (5*n) = [buf[5*n]] := by
      rw [List.drop_eq_getElem_cons h0, List.drop_of_length_le (by omega)]
    rw [hd]
    simp only [encTail, if_true, rd_ok _ _ h0, Res.ok_bind]
    rw [putTail_eq raw out W [buf[5*n]] _ _ hW.symm (digits1 _) (by simp) (by simp)
      (by rw [encText_length]; simp only [List.length_cons, List.length_nil, Nat.zero_add]; omega),
      encText_length]
    rfl
  | 2, _ =>
    have h0 : 5*n < buf.length := by omega
    have h1 : 5*n+1 < buf.length := by omega
    have hd : buf.drop (5*n) = [buf[5*n], buf[5*n+1]] := by
      rw [List.drop_eq_getElem_cons h0, List.drop_eq_getElem_cons h1,
        List.drop_of_length_le (by omega)]
    rw [hd]
    simp only [encTail, if_true, rd_ok _ _ h0, rd_ok _ _ h1, Res.ok_bind,
      show ¬ (2:Nat) = 1 by decide, if_false]
    rw [putTail_eq raw out W [buf[5*n], buf[5*n+1]] _ _ hW.symm (digits2 _ _) (by simp) (by simp)
      (by rw [encText_length]; simp only [List.length_cons, List.length_nil, Nat.zero_add, Nat.reduceAdd]; omega),
      encText_length]
    rfl
  | 3, _ =>
    have h0 : 5*n < buf.length := by omega
    have h1 : 5*n+1 < buf.length := by omega
    have h2 : 5*n+2 < buf.length := by omega
    have hd : buf.drop (5*n) = [buf[5*n], buf[5*n+1], buf[5*n+2]] := by
      rw [List.drop_eq_getElem_cons h0, List.drop_eq_getElem_cons h1, List.drop_eq_getElem_cons h2,
        List.drop_of_length_le (by omega)]
    rw [hd]
    simp only [encTail, if_true, rd_ok _ _ h0, rd_ok _ _ h1, rd_ok _ _ h2, Res.ok_bind,
      show ¬ (3:Nat) = 1 by decide, show ¬ (3:Nat) = 2 by decide, if_false]
    rw [putTail_eq raw out W [buf[5*n], buf[5*n+1], buf[5*n+2]] _ _ hW.symm (digits3 _ _ _)
      (by simp) (by simp)
      (by rw [encText_length]; simp only [List.length_cons, List.length_nil, Nat.zero_add, Nat.reduceAdd]; omega),
      encText_length]
    rfl
  | 4, _ =>
    have h0 : 5*n < buf.length := by omega
    have h1 : 5*n+1 < buf.length := by omega
    have h2 : 5*n+2 < buf.length := by omega
    have h3 : 5*n+3 < buf.length := by omega
    have hd : buf.drop (5*n) = [buf[5*n], buf[5*n+1], buf[5*n+2], buf[5*n+3]] := by
      rw [List.drop_eq_getElem_cons h0, List.drop_eq_getElem_cons h1, List.drop_eq_getElem_cons h2,
        List.drop_eq_getElem_cons h3, List.drop_of_length_le (by omega)]
    rw [hd]
    simp only [encTail, if_true, rd_ok _ _ h0, rd_ok _ _ h1, rd_ok _ _ h2, rd_ok _ _ h3, Res.ok_bind,
      show ¬ (4:Nat) = 1 by decide, show ¬ (4:Nat) = 2 by decide, show ¬ (4:Nat) = 3 by decide,
      if_false]
    rw [putTail_eq raw out W [buf[5*n], buf[5*n+1], buf[5*n+2], buf[5*n+3]] _ _ hW.symm
      (digits4 _ _ _ _) (by simp) (by simp)
      (by rw [encText_length]; simp only [List.length_cons, List.length_nil, Nat.zero_add, Nat.reduceAdd]; omega),
      encText_length]
    rfl

theorem toBase32Impl_eq (buf out : List Byte) (raw : Bool)
    (ho : (encText raw buf ++ padding raw buf.length).length ≤ out.length) :
    toBase32Impl buf buf.length out raw =
      .ok (over (encText raw buf ++ padding raw buf.length) out,
        (encText raw buf ++ padding raw buf.length).length) := by
  rw [List.length_append, encText_length] at ho
  have hsplit : (8 * buf.length + 4) / 5 = 8 * (buf.length / 5) + (8 * (buf.length % 5) + 4) / 5 := by
    omega
  have hpad : padding raw buf.length = padding raw (buf.length % 5) := by
    unfold padding
    rw [hsplit, Nat.mul_add_mod]
  unfold toBase32Impl
  have e0 := enc_loop raw buf out (buf.length / 5) 0 [] (by omega) (by simp) (by omega)
  simp only [over_nil, Nat.mul_zero, List.drop_zero, List.nil_append] at e0
  rw [e0]
  simp only [Res.ok_bind]
  have hlen : (List.take (5 * (buf.length / 5)) buf).length = 5 * (buf.length / 5) := by
    simp; omega
  rw [encTail_eq raw buf out _ (buf.length / 5) (buf.length % 5) (by omega) (by omega)
    (by rw [encText_length, hlen]; omega) (by rw [← hpad]; omega)]
  simp only [Res.ok_bind, Res.pure_eq]
  rw [hpad, ← encText_append raw _ _ _ hlen, List.take_append_drop, List.length_append, encText_length]
  congr 2
  omega

/-! ### decoding -/

/-- Value the decoder uses for a character (0xFF: illegal). -/
def decVal (raw : Bool) (c : Byte) : Byte :=
  if raw then (if c.toNat < 32 then c else 0xFF#8)
  else match value? c with | some v => BitVec.ofNat 8 v | none => 0xFF#8

theorem rd_decodeStr (raw : Bool) (c : Byte) : rd (decodeStr raw) c.toNat = .ok (decVal raw c) := by
  revert raw c; decide +kernel

theorem decAt_ok (cs raw : Bool) (str : List Byte) (i : Nat) (h : i < str.length)
    (hc : cs = true → str[i].toNat < 128) : decAt cs raw str i = .ok (decVal raw str[i]) := by
  unfold decAt
  rw [rd_ok _ _ h]
  simp only [Res.ok_bind, rd_decodeStr]
  cases cs
  · simp
  · have := hc rfl
    simp; omega

/-- What the decoder produces from the characters before the first `=`: complete groups up to the
first one with an illegal character; if all are legal, the bytes of the tail, unchecked. -/
def decPure (raw : Bool) : List Byte → List Byte
  | a :: b :: c :: d :: e :: f :: g :: h :: rest =>
    if decVal raw a = 0xFF#8 ∨ decVal raw b = 0xFF#8 ∨ decVal raw c = 0xFF#8 ∨ decVal raw d = 0xFF#8 ∨
       decVal raw e = 0xFF#8 ∨ decVal raw f = 0xFF#8 ∨ decVal raw g = 0xFF#8 ∨ decVal raw h = 0xFF#8 then []
    else group5 (decVal raw a) (decVal raw b) (decVal raw c) (decVal raw d) (decVal raw e)
      (decVal raw f) (decVal raw g) (decVal raw h) ++ decPure raw rest
  | tail => tailBytes (tail.map (decVal raw))

/-- Documented decoded length. -/
def decLen (n : Nat) : Nat :=
  n / 8 * 5 + (match n % 8 with | 2 => 1 | 4 => 2 | 5 => 3 | 7 => 4 | _ => 0)

theorem rd_tail (t : Nat) (h : t < 8) : rd TAIL_TO_BYTES t = .ok (decLen t) := by
  have : ∀ t : Fin 8, rd TAIL_TO_BYTES t.1 = .ok (decLen t.1) := by decide
  exact this ⟨t, h⟩

theorem decLen_eq (n : Nat) : decLen n = n / 8 * 5 + decLen (n % 8) := by
  simp only [decLen, Nat.mod_mod]
  rw [Nat.div_eq_of_lt (show n % 8 < 8 by omega)]; simp

theorem decTail_eq (cs raw : Bool) (str buf W : List Byte) (n t : Nat) (ht : t < 8)
    (hs : n * 8 + t ≤ str.length) (hW : W.length = 5 * n)
    (hcs : cs = true → ∀ (i : Nat) (_ : i < str.length), i < n * 8 + t → str[i].toNat < 128)
    (hb : 5 * n + decLen t ≤ buf.length) :
    decTail cs raw str n t (over W buf) =
      .ok (over (W ++ decPure raw ((str.drop (n*8)).take t)) buf,
        5 * n + (decPure raw ((str.drop (n*8)).take t)).length) := by
  have D : ∀ k, k < t → ∀ (h : n*8+k < str.length), decAt cs raw str (n*8+k) = .ok (decVal raw str[n*8+k]) := by
    intro k hk h
    exact decAt_ok cs raw str _ h (fun hh => hcs hh _ h (by omega))
  have hL : ∀ k, k ≤ t → k ≤ (str.drop (n*8)).length := by intro k hk; simp; omega
  unfold decTail
  rw [rd_tail t ht]
  simp only [Res.ok_bind]
  have E : ∀ (k : Nat), k < t → ∀ (h : n*8+k < str.length), str.drop (n*8+k) = str[n*8+k] :: str.drop (n*8+(k+1)) := by
    intro k hk h
    exact List.drop_eq_getElem_cons h
  have ht8 : t = 0 ∨ t = 1 ∨ t = 3 ∨ t = 6 ∨ t = 2 ∨ t = 4 ∨ t = 5 ∨ t = 7 := by omega
  rcases ht8 with rfl | rfl | rfl | rfl | rfl | rfl | rfl | rfl
  · simp [decLen, decPure, tailBytes]
  ·
    have h0 : n*8 < str.length := by omega
    have hl : (str.drop (n*8)).take 1 = [str[n*8]] := by
      rw [List.drop_eq_getElem_cons h0]; rfl
    rw [hl]; simp [decLen, decPure, tailBytes]
  ·
    have h0 : n*8 < str.length := by omega
    have h1 : n*8+1 < str.length := by omega
    have h2 : n*8+2 < str.length := by omega
    have hl : (str.drop (n*8)).take 3 = [str[n*8], str[n*8+1], str[n*8+2]] := by
      rw [List.drop_eq_getElem_cons h0, E 1 (by omega) h1, E 2 (by omega) h2]; rfl
    rw [hl]; simp [decLen, decPure, tailBytes]
  ·
    have h0 : n*8 < str.length := by omega
    have h1 : n*8+1 < str.length := by omega
    have h2 : n*8+2 < str.length := by omega
    have h3 : n*8+3 < str.length := by omega
    have h4 : n*8+4 < str.length := by omega
    have h5 : n*8+5 < str.length := by omega
    have hl : (str.drop (n*8)).take 6 = [str[n*8], str[n*8+1], str[n*8+2], str[n*8+3], str[n*8+4],
        str[n*8+5]] := by
      rw [List.drop_eq_getElem_cons h0, E 1 (by omega) h1, E 2 (by omega) h2,
        E 3 (by omega) h3, E 4 (by omega) h4, E 5 (by omega) h5]; rfl
    rw [hl]; simp [decLen, decPure, tailBytes]
  ·
    have h0 : n*8 < str.length := by omega
    have h1 : n*8+1 < str.length := by omega
    have hl : (str.drop (n*8)).take 2 = [str[n*8], str[n*8+1]] := by
      rw [List.drop_eq_getElem_cons h0, E 1 (by omega) h1]; rfl
    have d0 := D 0 (by omega) (by omega)
    have d1 := D 1 (by omega) h1
    simp only [Nat.add_zero] at d0
    have hdl : decLen 2 = 1 := rfl
    rw [hdl] at hb
    rw [hl]
    simp only [hdl, gt_iff_lt, Nat.zero_lt_one, if_true, Nat.lt_irrefl, if_false, d0, d1, Res.ok_bind]
    rw [wr_over _ _ _ _ (by omega) (by omega)]
    simp [decPure, tailBytes]
  ·
    have h0 : n*8 < str.length := by omega
    have h1 : n*8+1 < str.length := by omega
    have h2 : n*8+2 < str.length := by omega
    have h3 : n*8+3 < str.length := by omega
    have hl : (str.drop (n*8)).take 4 = [str[n*8], str[n*8+1], str[n*8+2], str[n*8+3]] := by
      rw [List.drop_eq_getElem_cons h0, E 1 (by omega) h1, E 2 (by omega) h2,
        E 3 (by omega) h3]; rfl
    have d0 := D 0 (by omega) (by omega)
    have d1 := D 1 (by omega) h1
    have d2 := D 2 (by omega) h2
    have d3 := D 3 (by omega) h3
    simp only [Nat.add_zero] at d0
    have hdl : decLen 4 = 2 := rfl
    rw [hdl] at hb
    rw [hl]
    simp only [hdl, gt_iff_lt, show (0:Nat) < 2 by decide, show (1:Nat) < 2 by decide, if_true,
      Nat.lt_irrefl, if_false, d0, d1, d2, d3, Res.ok_bind]
    rw [wr_over _ _ _ _ (by omega) (by omega)]
    simp only [Res.ok_bind]
    rw [wr_over _ _ _ _ (by simp; omega) (by simp; omega)]
    simp [decPure, tailBytes]
  ·
    have h0 : n*8 < str.length := by omega
    have h1 : n*8+1 < str.length := by omega
    have h2 : n*8+2 < str.length := by omega
    have h3 : n*8+3 < str.length := by omega
    have h4 : n*8+4 < str.length := by omega
    have hl : (str.drop (n*8)).take 5 = [str[n*8], str[n*8+1], str[n*8+2], str[n*8+3], str[n*8+4]] := by
      rw [List.drop_eq_getElem_cons h0, E 1 (by omega) h1, E 2 (by omega) h2,
        E 3 (by omega) h3, E 4 (by omega) h4]; rfl
    have d0 := D 0 (by omega) (by omega)
    have d1 := D 1 (by omega) h1
    have d2 := D 2 (by omega) h2
    have d3 := D 3 (by omega) h3
    have d4 := D 4 (by omega) h4
    simp only [Nat.add_zero] at d0
    have hdl : decLen 5 = 3 := rfl
    rw [hdl] at hb
    rw [hl]
    simp only [hdl, gt_iff_lt, show (0:Nat) < 3 by decide, show (1:Nat) < 3 by decide,
      show (2:Nat) < 3 by decide, if_true,
      Nat.lt_irrefl, if_false, d0, d1, d2, d3, d4, Res.ok_bind]
    rw [wr_over _ _ _ _ (by omega) (by omega)]
    simp only [Res.ok_bind]
    rw [wr_over _ _ _ _ (by simp; omega) (by simp; omega)]
    simp only [Res.ok_bind]
    rw [wr_over _ _ _ _ (by simp; omega) (by simp; omega)]
    simp [decPure, tailBytes]
  ·
    have h0 : n*8 < str.length := by omega
    have h1 : n*8+1 < str.length := by omega
    have h2 : n*8+2 < str.length := by omega
    have h3 : n*8+3 < str.length := by omega
    have h4 : n*8+4 < str.length := by omega
    have h5 : n*8+5 < str.length := by omega
    have h6 : n*8+6 < str.length := by omega
    have hl : (str.drop (n*8)).take 7 = [str[n*8], str[n*8+1], str[n*8+2], str[n*8+3], str[n*8+4],
        str[n*8+5], str[n*8+6]] := by
      rw [List.drop_eq_getElem_cons h0, E 1 (by omega) h1, E 2 (by omega) h2,
        E 3 (by omega) h3, E 4 (by omega) h4, E 5 (by omega) h5, E 6 (by omega) h6]; rfl
    have d0 := D 0 (by omega) (by omega)
    have d1 := D 1 (by omega) h1
    have d2 := D 2 (by omega) h2
    have d3 := D 3 (by omega) h3
    have d4 := D 4 (by omega) h4
    have d5 := D 5 (by omega) h5
    have d6 := D 6 (by omega) h6
    simp only [Nat.add_zero] at d0
    have hdl : decLen 7 = 4 := rfl
    rw [hdl] at hb
    rw [hl]
    simp only [hdl, gt_iff_lt, show (0:Nat) < 4 by decide, show (1:Nat) < 4 by decide,
      show (2:Nat) < 4 by decide, show (3:Nat) < 4 by decide, if_true,
      d0, d1, d2, d3, d4, d5, d6, Res.ok_bind]
    rw [wr_over _ _ _ _ (by omega) (by omega)]
    simp only [Res.ok_bind]
    rw [wr_over _ _ _ _ (by simp; omega) (by simp; omega)]
    simp only [Res.ok_bind]
    rw [wr_over _ _ _ _ (by simp; omega) (by simp; omega)]
    simp only [Res.ok_bind]
    rw [wr_over _ _ _ _ (by simp; omega) (by simp; omega)]
    simp [decPure, tailBytes]

theorem dec_loop (cs raw : Bool) (str buf : List Byte) (N t k j : Nat) (W : List Byte) (ht : t < 8)
    (hN : j + k = N) (hs : N * 8 + t ≤ str.length) (hW : W.length = 5 * j)
    (hcs : cs = true → ∀ (i : Nat) (_ : i < str.length), i < N * 8 + t → str[i].toNat < 128)
    (hb : 5 * N + decLen t ≤ buf.length) :
    (do
      match ← forLoopB (decBody cs raw str) j k (over W buf) with
      | .stop r => pure r
      | .next buf => decTail cs raw str N t buf) =
    .ok (over (W ++ decPure raw ((str.drop (j*8)).take (8*k+t))) buf,
        5 * j + (decPure raw ((str.drop (j*8)).take (8*k+t))).length) := by
  induction k generalizing j W with
  | zero =>
    have : j = N := by omega
    subst this
    simpa [forLoopB] using decTail_eq cs raw str buf W j t ht hs hW hcs hb
  | succ k ih =>
    have h0 : j*8 < str.length := by omega
    have h1 : j*8+1 < str.length := by omega
    have h2 : j*8+2 < str.length := by omega
    have h3 : j*8+3 < str.length := by omega
    have h4 : j*8+4 < str.length := by omega
    have h5 : j*8+5 < str.length := by omega
    have h6 : j*8+6 < str.length := by omega
    have h7 : j*8+7 < str.length := by omega
    have hl : (str.drop (j*8)).take (8*(k+1)+t) = str[j*8] :: str[j*8+1] :: str[j*8+2] ::
        str[j*8+3] :: str[j*8+4] :: str[j*8+5] :: str[j*8+6] :: str[j*8+7] ::
        (str.drop ((j+1)*8)).take (8*k+t) := by
      rw [List.drop_eq_getElem_cons h0, List.drop_eq_getElem_cons h1,
        List.drop_eq_getElem_cons h2, List.drop_eq_getElem_cons h3, List.drop_eq_getElem_cons h4,
        List.drop_eq_getElem_cons h5, List.drop_eq_getElem_cons h6, List.drop_eq_getElem_cons h7,
        show 8*(k+1)+t = (8*k+t)+1+1+1+1+1+1+1+1 by omega]
      simp only [List.take_succ_cons]
      rw [show j*8+7+1 = (j+1)*8 by omega]
    have d0 := decAt_ok cs raw str _ h0 (fun hh => hcs hh _ h0 (by omega))
    have d1 := decAt_ok cs raw str _ h1 (fun hh => hcs hh _ h1 (by omega))
    have d2 := decAt_ok cs raw str _ h2 (fun hh => hcs hh _ h2 (by omega))
    have d3 := decAt_ok cs raw str _ h3 (fun hh => hcs hh _ h3 (by omega))
    have d4 := decAt_ok cs raw str _ h4 (fun hh => hcs hh _ h4 (by omega))
    have d5 := decAt_ok cs raw str _ h5 (fun hh => hcs hh _ h5 (by omega))
    have d6 := decAt_ok cs raw str _ h6 (fun hh => hcs hh _ h6 (by omega))
    have d7 := decAt_ok cs raw str _ h7 (fun hh => hcs hh _ h7 (by omega))
    rw [hl, decPure]
    simp only [forLoopB, decBody, d0, d1, d2, d3, d4, d5, d6, d7, Res.ok_bind]
    split
    · simp
    · rw [wrs_over _ _ _ _ hW.symm (by simp; omega)]
      simp only [Res.ok_bind, Res.pure_eq]
      have := ih (j+1) (W ++ group5 (decVal raw str[j*8]) (decVal raw str[j*8+1])
        (decVal raw str[j*8+2]) (decVal raw str[j*8+3]) (decVal raw str[j*8+4]) (decVal raw str[j*8+5])
        (decVal raw str[j*8+6]) (decVal raw str[j*8+7])) (by omega) (by simp [group5]; omega)
      simp only [Res.pure_eq] at this
      unfold group5 at this ⊢
      rw [this]
      simp; omega

theorem fromBase32Impl_eq (cs raw : Bool) (str buf : List Byte) (n m : Nat)
    (hm : strlen str n = .ok m) (hs : m ≤ str.length)
    (hcs : cs = true → ∀ b ∈ str.take m, b.toNat < 128)
    (hb : decLen m ≤ buf.length) :
    fromBase32Impl cs str n buf raw =
      .ok (over (decPure raw (str.take m)) buf, (decPure raw (str.take m)).length) := by
  have hcs' : cs = true → ∀ (i : Nat) (_ : i < str.length), i < m / 8 * 8 + m % 8 → str[i].toNat < 128 := by
    intro hh i hi hlt
    apply hcs hh
    rw [List.mem_take_iff_getElem]
    exact ⟨i, by omega, rfl⟩
  have := dec_loop cs raw str buf (m/8) (m%8) (m/8) 0 [] (by omega) (by omega) (by omega) (by simp)
    hcs' (by rw [decLen_eq] at hb; omega)
  simp only [over_nil, Nat.zero_mul, Nat.mul_zero, List.drop_zero, List.nil_append, Nat.zero_add,
    show 8 * (m/8) + m % 8 = m by omega] at this
  unfold fromBase32Impl
  rw [hm]
  simp only [Res.ok_bind]
  exact this

theorem decLen_add8 (n : Nat) : decLen (n + 8) = 5 + decLen n := by
  simp only [decLen, Nat.add_mod_right]; omega

theorem tailBytes_length (l : List Byte) (h : l.length < 8) : (tailBytes l).length = decLen l.length := by
  match l, h with
  | [], _ => simp [tailBytes, decLen]
  | [_], _ => simp [tailBytes, decLen]
  | [_, _], _ => simp [tailBytes, decLen]
  | [_, _, _], _ => simp [tailBytes, decLen]
  | [_, _, _, _], _ => simp [tailBytes, decLen]
  | [_, _, _, _, _], _ => simp [tailBytes, decLen]
  | [_, _, _, _, _, _], _ => simp [tailBytes, decLen]
  | [_, _, _, _, _, _, _], _ => simp [tailBytes, decLen]
  | _ :: _ :: _ :: _ :: _ :: _ :: _ :: _ :: r, h => simp at h; omega

/-- A full group in front. -/
theorem decPure_cons8 (raw : Bool) (g rest : List Byte) (hg : g.length = 8) :
    decPure raw (g ++ rest) = if ∃ c ∈ g, decVal raw c = 0xFF#8 then []
      else bytesOf 5 ((g.map (decVal raw)).map BitVec.toNat) ++ decPure raw rest := by
  match g, hg with
  | [a, b, c, d, e, f, g, h], _ =>
    simp only [List.cons_append, List.nil_append, decPure]
    by_cases hbad : decVal raw a = 0xFF#8 ∨ decVal raw b = 0xFF#8 ∨ decVal raw c = 0xFF#8 ∨
        decVal raw d = 0xFF#8 ∨ decVal raw e = 0xFF#8 ∨ decVal raw f = 0xFF#8 ∨
        decVal raw g = 0xFF#8 ∨ decVal raw h = 0xFF#8
    · rw [if_pos hbad, if_pos (by simpa using hbad)]
    · rw [if_neg hbad, if_neg (by simpa using hbad)]
      have H : ∀ raw c, decVal raw c ≠ 0xFF#8 → (decVal raw c).toNat < 2^5 := by decide +kernel
      simp only [not_or] at hbad
      obtain ⟨p1, p2, p3, p4, p5, p6, p7, p8⟩ := hbad
      rw [← bytes8 _ _ _ _ _ _ _ _ (H _ _ p1) (H _ _ p2) (H _ _ p3) (H _ _ p4) (H _ _ p5)
        (H _ _ p6) (H _ _ p7) (H _ _ p8)]
      rfl

theorem decPure_short (raw : Bool) (l : List Byte) (h : l.length < 8) :
    decPure raw l = tailBytes (l.map (decVal raw)) := by
  match l, h with
  | [], _ => rfl
  | [_], _ => rfl
  | [_, _], _ => rfl
  | [_, _, _], _ => rfl
  | [_, _, _, _], _ => rfl
  | [_, _, _, _, _], _ => rfl
  | [_, _, _, _, _, _], _ => rfl
  | [_, _, _, _, _, _, _], _ => rfl
  | _ :: _ :: _ :: _ :: _ :: _ :: _ :: _ :: r, h => simp at h; omega

/-- Induction on complete groups of eight. -/
theorem groups8_induction {P : List Byte → Prop} (short : ∀ l, l.length < 8 → P l)
    (step : ∀ g rest, g.length = 8 → P rest → P (g ++ rest)) (l : List Byte) : P l := by
  have : ∀ n, ∀ l : List Byte, l.length ≤ n → P l := by
    intro n
    induction n with
    | zero => intro l hl; exact short l (by omega)
    | succ n ih =>
      intro l hl
      by_cases h : l.length < 8
      · exact short l h
      · rw [← List.take_append_drop 8 l]
        exact step _ _ (by simp; omega) (ih _ (by simp; omega))
  exact this _ l (Nat.le_refl _)

theorem bytes_group_length (vs : List Byte) (h : vs.length = 8) :
    (bytesOf 5 (vs.map BitVec.toNat)).length = 5 := by
  have hb := bitsk_length 5 (vs.map BitVec.toNat)
  rw [List.length_map, h] at hb
  unfold bytesOf
  generalize (vs.map BitVec.toNat).flatMap (fun d => bitsOf 5 d) = L at hb
  have hL : L = L.take 8 ++ ((L.drop 8).take 8 ++ ((L.drop 16).take 8 ++ ((L.drop 24).take 8 ++
      (L.drop 32).take 8))) := by
    have e1 := (List.take_append_drop 8 L).symm
    have e2 := (List.take_append_drop 8 (L.drop 8)).symm
    have e3 := (List.take_append_drop 8 (L.drop 16)).symm
    have e4 := (List.take_append_drop 8 (L.drop 24)).symm
    rw [List.drop_drop] at e2 e3 e4
    have e5 : (L.drop 32).take 8 = L.drop 32 := List.take_of_length_le (by simp; omega)
    rw [e5, ← e4, ← e3, ← e2, ← e1]
  rw [hL, chunksOf_append_one 8 _ _ (by omega) (by simp; omega),
    chunksOf_append_one 8 _ _ (by omega) (by simp; omega),
    chunksOf_append_one 8 _ _ (by omega) (by simp; omega),
    chunksOf_append_one 8 _ _ (by omega) (by simp; omega),
    chunksOf_short 8 _ (by intro h0; have := congrArg List.length h0; simp at this; omega) (by simp; omega)]
  have t1 : 8 ≤ L.length := by omega
  simp [List.length_take, List.length_drop, hb]

theorem decPure_length_le (raw : Bool) (l : List Byte) : (decPure raw l).length ≤ decLen l.length := by
  induction l using groups8_induction with
  | short l h => rw [decPure_short raw l h, tailBytes_length _ (by simpa using h)]; simp
  | step g rest hg ih =>
    rw [decPure_cons8 raw g rest hg, List.length_append, hg, Nat.add_comm 8, decLen_add8]
    split
    · simp
    · rw [List.length_append, bytes_group_length _ (by simpa using hg)]; omega

/-- The whole documented length is produced exactly when all *complete groups* are legal. -/
theorem decPure_full_iff (raw : Bool) (l : List Byte) :
    (decPure raw l).length = decLen l.length ↔
      ∀ c ∈ l.take (l.length / 8 * 8), decVal raw c ≠ 0xFF#8 := by
  induction l using groups8_induction with
  | short l h =>
    rw [decPure_short raw l h, tailBytes_length _ (by simpa using h), Nat.div_eq_of_lt h]; simp
  | step g rest hg ih =>
    have ht : (g ++ rest).take ((g ++ rest).length / 8 * 8) = g ++ rest.take (rest.length / 8 * 8) := by
      rw [List.length_append, hg, show (8 + rest.length) / 8 * 8 = 8 + rest.length / 8 * 8 by omega,
        List.take_append, hg]
      rw [List.take_of_length_le (by omega)]; simp
    rw [ht, decPure_cons8 raw g rest hg, List.length_append, hg, Nat.add_comm 8, decLen_add8]
    have hle := decPure_length_le raw rest
    split
    · rename_i hbad
      obtain ⟨c, hc, hv⟩ := hbad
      constructor
      · intro h; simp only [List.length_nil] at h; omega
      · intro h; exact absurd hv (h c (by simp [hc]))
    · rename_i hgood
      rw [List.length_append, bytes_group_length _ (by simpa using hg), Nat.add_left_cancel_iff, ih]
      constructor
      · intro h c hc
        rcases List.mem_append.mp hc with h1 | h1
        · exact fun h2 => hgood ⟨c, h1, h2⟩
        · exact h c h1
      · intro h c hc; exact h c (by simp [hc])

/-- All characters legal and a possible tail length: the result is the RFC bit regrouping. -/
theorem decPure_legal (raw : Bool) (l : List Byte) (h : ∀ c ∈ l, decVal raw c ≠ 0xFF#8)
    (hl : l.length % 8 = 0 ∨ l.length % 8 = 2 ∨ l.length % 8 = 4 ∨ l.length % 8 = 5 ∨ l.length % 8 = 7) :
    decPure raw l = bytesOf 5 (l.map fun c => (decVal raw c).toNat) := by
  have H : ∀ raw c, decVal raw c ≠ 0xFF#8 → (decVal raw c).toNat < 2^5 := by decide +kernel
  induction l using groups8_induction with
  | short l hs =>
    rw [decPure_short raw l hs, ← bytes_tail _ _ (by
      rw [List.length_map]; rw [Nat.mod_eq_of_lt hs] at hl; exact hl)]
    · rw [List.map_map]; rfl
    · intro v hv
      obtain ⟨c, hc, rfl⟩ := List.mem_map.mp hv
      exact H _ _ (h c hc)
  | step g rest hg ih =>
    rw [decPure_cons8 raw g rest hg, if_neg (by
      rintro ⟨c, hc, hv⟩; exact h c (by simp [hc]) hv)]
    rw [ih (fun c hc => h c (by simp [hc])) (by
      rw [List.length_append, hg, Nat.add_comm, Nat.add_mod_right] at hl; exact hl)]
    rw [List.map_append, bytesOf_append 5 5 _ _ (by simp [hg]), List.map_map]
    rfl

theorem decVal_encChar (raw : Bool) (n : Nat) (h : n < 32) :
    decVal raw (encChar raw n) = BitVec.ofNat 8 n := by
  have : ∀ raw, ∀ n : Fin 32, decVal raw (encChar raw n.1) = BitVec.ofNat 8 n.1 := by decide +kernel
  exact this raw ⟨n, h⟩

theorem decPure_encText (raw : Bool) (bs : List Byte) : decPure raw (encText raw bs) = bs := by
  have hlt := fun d hd => digitsOf_lt 5 bs (by omega) d hd
  have hN : ∀ n : Fin 32, BitVec.ofNat 8 n.1 ≠ 0xFF#8 := by decide
  rw [decPure_legal raw]
  · rw [encText, List.map_map]
    have : (digitsOf 5 bs).map ((fun c => (decVal raw c).toNat) ∘ encChar raw) = digitsOf 5 bs := by
      conv => rhs; rw [← List.map_id (digitsOf 5 bs)]
      apply List.map_congr_left
      intro d hd
      have := hlt d hd
      simp only [Function.comp, decVal_encChar raw d this, BitVec.toNat_ofNat, id]
      omega
    rw [this, bytesOf_digitsOf 5 bs (by omega) (by omega)]
  · intro c hc
    obtain ⟨d, hd, rfl⟩ := List.mem_map.mp hc
    rw [decVal_encChar raw d (hlt d hd)]
    exact hN ⟨d, hlt d hd⟩
  · rw [encText_length]; omega

end Base32
