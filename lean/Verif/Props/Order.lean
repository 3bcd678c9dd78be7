import Verif.Spec.Order
import Verif.Props.Hex
import Verif.Props.Base58Total
import Verif.Props.Bech32
import Verif.Props.Base64
import Verif.Props.Base32
import Verif.Props.CompressInteger
import Verif.Lemmas.Base58Check
/-! Property theorems C116: the order of texts is that of what they stand for. -/
open OrderSpec

namespace Order

/-- Lexicographic order of two lists of numbers. -/
def lexN : List Nat → List Nat → Bool
  | _, [] => false
  | [], _ :: _ => true
  | x :: a, y :: b => decide (x < y) || (x = y && lexN a b)

theorem before_lexN : ∀ a b : List Byte, before a b = lexN (a.map BitVec.toNat) (b.map BitVec.toNat)
  | [], [] => rfl
  | _ :: _, [] => rfl
  | [], _ :: _ => rfl
  | x :: a, y :: b => by simp [before, lexN, before_lexN a b, BitVec.toNat_inj]

theorem lexN_value (B : Nat) : ∀ a b : List Nat, a.length = b.length → (∀ x ∈ a, x < B) → (∀ x ∈ b, x < B) →
    lexN a b = decide (Positional.value B a < Positional.value B b)
  | [], [], _, _, _ => by simp [lexN]
  | x :: a, y :: b, h, ha, hb => by
    have hl : a.length = b.length := by simpa using h
    have ha' : ∀ x ∈ a, x < B := fun x hx => ha x (List.mem_cons_of_mem _ hx)
    have hb' : ∀ x ∈ b, x < B := fun x hx => hb x (List.mem_cons_of_mem _ hx)
    have va := Positional.value_lt B a ha'
    have vb := Positional.value_lt B b hb'
    rw [lexN, lexN_value B a b hl ha' hb', Positional.value_cons, Positional.value_cons]
    rw [hl] at va ⊢
    generalize B ^ b.length = M at *
    generalize Positional.value B a = p at *
    generalize Positional.value B b = q at *
    rcases Nat.lt_trichotomy x y with hxy | hxy | hxy
    · have : (x + 1) * M ≤ y * M := Nat.mul_le_mul_right M hxy
      rw [Nat.add_mul, Nat.one_mul] at this
      have h2 : x * M + p < y * M + q := by omega
      simp [hxy, h2]
    · subst hxy; simp
    · have : (y + 1) * M ≤ x * M := Nat.mul_le_mul_right M hxy
      rw [Nat.add_mul, Nat.one_mul] at this
      have h2 : ¬ x * M + p < y * M + q := by omega
      have h3 : ¬ x < y := by omega
      have h4 : x ≠ y := by omega
      simp [h2, h3, h4]

theorem before_number (a b : List Byte) (h : a.length = b.length) : before a b = decide (Base58Spec.number a < Base58Spec.number b) := by
  rw [before_lexN, lexN_value 256 _ _ (by simpa using h)]
  · rfl
  · intro x hx; obtain ⟨c, -, rfl⟩ := List.mem_map.mp hx; exact c.isLt
  · intro x hx; obtain ⟨c, -, rfl⟩ := List.mem_map.mp hx; exact c.isLt

/-! ### Hexadecimal -/

theorem digit_lt : ∀ (u : Bool) (i j : Fin 16), (HexSpec.digit u i).toNat < (HexSpec.digit u j).toNat ↔ i.1 < j.1 := by decide +kernel
theorem digit_eq : ∀ (u : Bool) (i j : Fin 16), HexSpec.digit u i = HexSpec.digit u j ↔ i.1 = j.1 := by decide +kernel

theorem hex (u : Bool) : ∀ a b : List Byte, before (HexSpec.encode u a) (HexSpec.encode u b) = before a b
  | [], [] => rfl
  | [], _ :: _ => rfl
  | _ :: _, [] => rfl
  | x :: a, y :: b => by
    have e : ∀ (z : Byte) (l : List Byte), HexSpec.encode u (z :: l) = HexSpec.digit u (z.toNat / 16) :: HexSpec.digit u (z.toNat % 16) :: HexSpec.encode u l := fun _ _ => rfl
    rw [e, e, before, before, before, hex u a b]
    have hx := x.isLt
    have hy := y.isLt
    have d1 := digit_lt u ⟨x.toNat / 16, by omega⟩ ⟨y.toNat / 16, by omega⟩
    have d2 := digit_lt u ⟨x.toNat % 16, by omega⟩ ⟨y.toNat % 16, by omega⟩
    have e1 := digit_eq u ⟨x.toNat / 16, by omega⟩ ⟨y.toNat / 16, by omega⟩
    have e2 := digit_eq u ⟨x.toNat % 16, by omega⟩ ⟨y.toNat % 16, by omega⟩
    simp only at d1 d2 e1 e2
    simp only [d1, d2, e1, e2, ← BitVec.toNat_inj]
    rw [Bool.eq_iff_iff]
    simp only [Bool.or_eq_true, Bool.and_eq_true, decide_eq_true_eq]
    constructor
    · rintro (h | ⟨h1, h | ⟨h2, h3⟩⟩)
      · left; omega
      · left; omega
      · right; exact ⟨by omega, h3⟩
    · rintro (h | ⟨h1, h3⟩)
      · by_cases hh : x.toNat / 16 < y.toNat / 16
        · exact Or.inl hh
        · right; exact ⟨by omega, Or.inl (by omega)⟩
      · right; exact ⟨by omega, Or.inr ⟨by omega, h3⟩⟩

/-! ### Base58 -/

theorem char_lt : ∀ i j : Fin 58, (Base58Spec.char i).toNat < (Base58Spec.char j).toNat ↔ i.1 < j.1 := by decide +kernel

theorem chars : ∀ a b : List Nat, (∀ d ∈ a, d < 58) → (∀ d ∈ b, d < 58) → before (a.map Base58Spec.char) (b.map Base58Spec.char) = lexN a b
  | [], [], _, _ => rfl
  | [], _ :: _, _, _ => rfl
  | _ :: _, [], _, _ => rfl
  | x :: a, y :: b, ha, hb => by
    have hx := ha x (by simp)
    have hy := hb y (by simp)
    have d := char_lt ⟨x, hx⟩ ⟨y, hy⟩
    have d' := char_lt ⟨y, hy⟩ ⟨x, hx⟩
    simp only at d d'
    have e : Base58Spec.char x = Base58Spec.char y ↔ x = y := by
      constructor
      · intro h; rw [h] at d d'; omega
      · rintro rfl; rfl
    rw [List.map_cons, List.map_cons, before, lexN, chars a b (fun d hd => ha d (List.mem_cons_of_mem _ hd)) (fun d hd => hb d (List.mem_cons_of_mem _ hd))]
    simp only [d, e]

theorem numeral (bs : List Byte) : ∃ ds : List Nat, Base58Spec.encode bs = ds.map Base58Spec.char ∧ (∀ d ∈ ds, d < 58) ∧ Positional.value 58 ds = Base58Spec.number bs := by
  refine ⟨List.replicate (bs.takeWhile (· = 0#8)).length 0 ++ Positional.digits 58 (Base58Spec.number bs), ?_, ?_, ?_⟩
  · rw [List.map_append, List.map_replicate]; rfl
  · intro d hd
    rcases List.mem_append.mp hd with h | h
    · rw [(List.mem_replicate.mp h).2]; decide
    · exact Positional.digits_lt 58 _ (by decide) d h
  · rw [Positional.value_append, Positional.value_digits 58 _ (by decide), Positional.value_zeros 58 _ (fun x hx => (List.mem_replicate.mp hx).2)]; simp

theorem base58 (a b : List Byte) (h : a.length = b.length) (ht : (Base58Spec.encode a).length = (Base58Spec.encode b).length) :
    before (Base58Spec.encode a) (Base58Spec.encode b) = before a b := by
  obtain ⟨ds, e1, l1, v1⟩ := numeral a
  obtain ⟨es, e2, l2, v2⟩ := numeral b
  rw [e1, e2] at ht ⊢
  rw [chars ds es l1 l2, lexN_value 58 ds es (by simpa using ht) l1 l2, v1, v2, before_number a b h]

/-- What is appended does not matter if the first parts differ. -/
theorem before_append : ∀ a b : List Byte, a.length = b.length → a ≠ b → ∀ r s, before (a ++ r) (b ++ s) = before a b
  | [], [], _, h, _, _ => absurd rfl h
  | x :: a, y :: b, hl, h, r, s => by
    rw [List.cons_append, List.cons_append, before, before]
    by_cases hxy : x = y
    · subst hxy
      rw [before_append a b (by simpa using hl) (fun e => h (by rw [e])) r s]
    · simp [hxy]

theorem take_over' (s buf : List Byte) : (over s buf).take s.length = s := by simp [over]

/-! ### Variable-length integers -/

/-- The low seven bits of the bytes, as numerals to base 128. -/
def low (s : List Byte) : List Nat := s.map fun b => b.toNat % 128

def plus : Nat → Nat
  | 0 => 0
  | k+1 => 128 * plus k + 1

theorem low_snoc (p : List Byte) (b : Byte) : Positional.value 128 (low (p ++ [b])) = Positional.value 128 (low p) * 128 + b.toNat % 128 := by
  unfold low; rw [List.map_append, List.map_cons, List.map_nil, Positional.value_snoc]

theorem cont_reverse : ∀ r : List Byte, (∀ x ∈ r, 128 ≤ x.toNat) → VarintSpec.value r.reverse = Positional.value 128 (low r.reverse) + plus r.length
  | [], _ => rfl
  | b :: r, h => by
    rw [List.reverse_cons, CompressInteger.value_snoc, cont_reverse r (fun x hx => h x (by simp [hx])), low_snoc, if_pos (h b (by simp)), List.length_cons, plus]
    omega

theorem cont_value (p : List Byte) (h : ∀ x ∈ p, 128 ≤ x.toNat) : VarintSpec.value p = Positional.value 128 (low p) + plus p.length := by
  have := cont_reverse p.reverse (by simpa using h)
  rwa [List.reverse_reverse, List.length_reverse] at this

theorem complete_value (p : List Byte) (b : Byte) (h : ∀ x ∈ p, 128 ≤ x.toNat) (hb : b.toNat < 128) :
    VarintSpec.value (p ++ [b]) = Positional.value 128 (low (p ++ [b])) + 128 * plus p.length := by
  rw [CompressInteger.value_snoc, cont_value p h, low_snoc, if_neg (by omega)]
  omega

theorem low_lex : ∀ (p q : List Byte) (b c : Byte), p.length = q.length → (∀ x ∈ p, 128 ≤ x.toNat) → (∀ x ∈ q, 128 ≤ x.toNat) → b.toNat < 128 → c.toNat < 128 →
    before (p ++ [b]) (q ++ [c]) = lexN (low (p ++ [b])) (low (q ++ [c]))
  | [], [], b, c, _, _, _, hb, hc => by
    simp only [List.nil_append, before, low, List.map_cons, List.map_nil, lexN, Nat.mod_eq_of_lt hb, Nat.mod_eq_of_lt hc, Bool.and_false]
  | x :: p, y :: q, b, c, hl, hp, hq, hb, hc => by
    have hx := hp x (by simp)
    have hy := hq y (by simp)
    have lx := x.isLt
    have ly := y.isLt
    rw [List.cons_append, List.cons_append, before, low_lex p q b c (by simpa using hl) (fun z hz => hp z (by simp [hz])) (fun z hz => hq z (by simp [hz])) hb hc]
    show _ = (decide (x.toNat % 128 < y.toNat % 128) || (decide (x.toNat % 128 = y.toNat % 128) && _))
    have e1 : x.toNat % 128 < y.toNat % 128 ↔ x.toNat < y.toNat := by omega
    have e2 : x.toNat % 128 = y.toNat % 128 ↔ x = y := by rw [← BitVec.toNat_inj]; omega
    simp only [e1, e2]; rfl

theorem varint (s t : List Byte) (hs : VarintSpec.Complete s) (ht : VarintSpec.Complete t) (hl : s.length = t.length) :
    before s t = decide (VarintSpec.value s < VarintSpec.value t) := by
  obtain ⟨p, b, rfl, hp, hb⟩ := hs
  obtain ⟨q, c, rfl, hq, hc⟩ := ht
  have hl' : p.length = q.length := by simpa using hl
  have hlow : ∀ l : List Byte, ∀ x ∈ low l, x < 128 := by
    intro l x hx; obtain ⟨y, -, rfl⟩ := List.mem_map.mp hx; exact Nat.mod_lt _ (by decide)
  rw [low_lex p q b c hl' hp hq hb hc, lexN_value 128 _ _ (by simpa [low] using hl') (hlow _) (hlow _), complete_value p b hp hb, complete_value q c hq hc, hl']
  simp only [Nat.add_lt_add_iff_right]

/-! ### First characters -/

theorem first (k : Nat) (hk8 : k ≤ 8) (x : Byte) (r : List Byte) :
    ∃ t, BaseN.digitsOf k (x :: r) = BaseN.numOf (BaseN.zeroFill k ((BaseN.bitsOf 8 x.toNat).take k)) :: t := by
  have hne : (BaseN.bitsOf 8 x.toNat ++ r.flatMap fun b => BaseN.bitsOf 8 b.toNat) ≠ [] := by simp [BaseN.bitsOf, List.range_succ]
  unfold BaseN.digitsOf BaseN.chunksOf
  rw [List.flatMap_cons]
  obtain ⟨m, hm⟩ : ∃ m, (BaseN.bitsOf 8 x.toNat ++ r.flatMap fun b => BaseN.bitsOf 8 b.toNat).length = m + 1 := ⟨_, (Nat.succ_pred (fun e => hne (List.eq_nil_of_length_eq_zero e))).symm⟩
  rw [hm, BaseN.cut, if_neg hne, List.map_cons, List.take_append_of_le_length (by simp [BaseN.bitsOf]; omega)]
  exact ⟨_, rfl⟩

theorem first6 : ∀ x : Byte, BaseN.numOf (BaseN.zeroFill 6 ((BaseN.bitsOf 8 x.toNat).take 6)) = x.toNat / 4 := by decide +kernel
theorem first5 : ∀ x : Byte, BaseN.numOf (BaseN.zeroFill 5 ((BaseN.bitsOf 8 x.toNat).take 5)) = x.toNat / 8 := by decide +kernel

theorem before_cons (x y : Byte) (a b : List Byte) (h : x.toNat < y.toNat) : before (x :: a) (y :: b) = true := by simp [before, h]

theorem before_common : ∀ p a b : List Byte, before (p ++ a) (p ++ b) = before a b
  | [], _, _ => rfl
  | x :: p, a, b => by rw [List.cons_append, List.cons_append, before, before_common p a b]; simp

end Order

open Order

/-- C116. Hexadecimal texts (of the same letter case) sort as the data, whatever the lengths. -/
theorem C116_hex (a b sa sb : List Byte) (upper : Bool) (ha : 2 * a.length ≤ sa.length) (hb : 2 * b.length ≤ sb.length) :
    ∃ ta tb, Hex.toHex a a.length sa upper = .ok ta ∧ Hex.toHex b b.length sb upper = .ok tb ∧
      before (ta.take (2 * a.length)) (tb.take (2 * b.length)) = before a b := by
  have h1 := C01_to_hex_writes_spec a sa upper (by simpa [Hex.toHexLength, Nat.mul_comm] using ha)
  have h2 := C01_to_hex_writes_spec b sb upper (by simpa [Hex.toHexLength, Nat.mul_comm] using hb)
  refine ⟨_, _, h1.1, h2.1, ?_⟩
  have e : ∀ l, 2 * l.length = (HexSpec.encode upper l).length := fun l => by rw [Hex.encode_length]
  rw [e a, e b, take_over', take_over', hex]

/-- C116. Base58 texts of the same length sort as the data, for data of the same length.
Missing: texts of different lengths (`C116_violated_base58`). -/
theorem C116_base58_partial (a b sa sb : List Byte) (h : a.length = b.length) (hn : a.length < 2 ^ 30)
    (ha : Base58.toBase58Length a.length ≤ sa.length) (hb : Base58.toBase58Length b.length ≤ sb.length) :
    ∃ ta tb n m, Base58.toBase58 a a.length sa = .ok (ta, n) ∧ Base58.toBase58 b b.length sb = .ok (tb, m) ∧
      (n = m → before (ta.take n) (tb.take m) = before a b) := by
  refine ⟨_, _, _, _, C13_to_base58_canonical a sa hn (Nat.le_trans (encode58_length_le a) ha), C13_to_base58_canonical b sb (h ▸ hn) (Nat.le_trans (encode58_length_le b) hb), fun e => ?_⟩
  rw [take_over', take_over', base58 a b h e]

/-- C116. So do Base58Check texts (addresses, secret keys) of the same length with the same prefix, whatever their checksums. -/
theorem C116_base58check_partial (host host' : Host) (a b pre sa sb : List Byte) (h : a.length = b.length) (hn : a.length + pre.length + 4 < 2 ^ 30) (hne : a ≠ b)
    (ha : Base58Check.toBase58CheckLength a.length pre.length ≤ sa.length) (hb : Base58Check.toBase58CheckLength b.length pre.length ≤ sb.length) :
    ∃ ta tb n m, Base58Check.toBase58Check host a a.length pre pre.length sa = .ok (ta, n) ∧ Base58Check.toBase58Check host' b b.length pre pre.length sb = .ok (tb, m) ∧
      (n = m → before (ta.take n) (tb.take m) = before a b) := by
  have hl : ∀ x : List Byte, (Base58CheckSpec.encode (pre ++ x)).length ≤ Base58Check.toBase58CheckLength x.length pre.length := by
    intro x
    have := encode58_length_le (pre ++ x ++ Base58CheckSpec.checksum (pre ++ x))
    rw [List.length_append, Base58Check.checksum_length, List.length_append] at this
    rw [Base58Check.toBase58CheckLength, show x.length + 4 + pre.length = pre.length + x.length + 4 by omega]
    exact this
  have e1 := Base58Check.toBase58Check_eq host a a.length pre pre.length sa (Nat.le_refl _) (Nat.le_refl _) hn (by rw [List.take_length, List.take_length]; exact Nat.le_trans (hl a) ha)
  have e2 := Base58Check.toBase58Check_eq host' b b.length pre pre.length sb (Nat.le_refl _) (Nat.le_refl _) (h ▸ hn) (by rw [List.take_length, List.take_length]; exact Nat.le_trans (hl b) hb)
  rw [List.take_length, List.take_length] at e1 e2
  refine ⟨_, _, _, _, e1, e2, fun e => ?_⟩
  unfold Base58CheckSpec.encode at e ⊢
  rw [take_over', take_over', base58 _ _ (by simp [h, Base58Check.checksum_length]) e, List.append_assoc, List.append_assoc, before_common, before_append a b h hne]

/-- C116. Variable-length integers of the same length sort as the numbers.
Missing: encodings of different lengths (`C116_violated_varint`). -/
theorem C116_varint_partial (v w : U64) (tmp tmp' ba bb ta tb : List Byte) (n : Nat) (ht : tmp.length = 10) (ht' : tmp'.length = 10)
    (ha : CompressInteger.encodeVarint tmp v ba = .ok (ta, n)) (hb : CompressInteger.encodeVarint tmp' w bb = .ok (tb, n)) :
    before (ta.take n) (tb.take n) = decide (v.toNat < w.toNat) := by
  obtain ⟨rfl, h1, -⟩ := encodeVarint_inv ht ha
  obtain ⟨rfl, h2, -⟩ := encodeVarint_inv ht' hb
  have e : (CompressInteger.enc v.toNat).length = (CompressInteger.enc w.toNat).length := by omega
  rw [show n = (CompressInteger.enc v.toNat).length by omega, take_over', e, take_over', varint _ _ (CompressInteger.enc_complete _) (CompressInteger.enc_complete _) e,
    CompressInteger.enc_value, CompressInteger.enc_value]

/-- C116 fails for Base58 texts of different lengths. -/
theorem C116_violated_base58 : before [0x00#8, 0x39#8] [0x00#8, 0x3A#8] = true ∧
    Base58.toBase58 [0x00#8, 0x39#8] 2 (List.replicate 5 0#8) = .ok (cstr "1z" ++ List.replicate 3 0#8, 2) ∧
    Base58.toBase58 [0x00#8, 0x3A#8] 2 (List.replicate 5 0#8) = .ok (cstr "121" ++ List.replicate 2 0#8, 3) ∧
    before (cstr "121") (cstr "1z") = true := by decide +kernel

/-- C116 fails for variable-length integers of different lengths: from 256 on those of two bytes come behind the first of three bytes. -/
theorem C116_violated_varint (v : U64) (hv : 256 ≤ v.toNat) (hw : v.toNat < 16512) :
    ∃ s t, s.length = 2 ∧ t.length = 3 ∧
      (∀ tmp buf : List Byte, tmp.length = 10 → 3 ≤ buf.length → CompressInteger.encodeVarint tmp v buf = .ok (over s buf, 2) ∧
        CompressInteger.encodeVarint tmp 16512#64 buf = .ok (over t buf, 3)) ∧ before t s = true := by
  have e : CompressInteger.enc v.toNat = [BitVec.ofNat 8 (v.toNat / 128 - 1 + 128), BitVec.ofNat 8 (v.toNat % 128)] := by
    rw [CompressInteger.enc, if_neg (by omega), CompressInteger.encC, if_pos (by omega)]; rfl
  have e' : CompressInteger.enc (16512#64).toNat = [0x80#8, 0x80#8, 0x00#8] := by
    show CompressInteger.enc 16512 = _
    rw [CompressInteger.enc, if_neg (by omega), CompressInteger.encC, if_neg (by omega), CompressInteger.encC, if_pos (by omega)]; rfl
  refine ⟨CompressInteger.enc v.toNat, CompressInteger.enc (16512#64).toNat, ?_, ?_, fun tmp buf ht hb => ⟨?_, ?_⟩, ?_⟩
  · rw [e]; rfl
  · rw [e']; rfl
  · rw [CompressInteger.encodeVarint_eq tmp buf v ht (by rw [e]; simp; omega), e]; rfl
  · rw [CompressInteger.encodeVarint_eq tmp buf _ ht (by rw [e']; simp; omega), e']; rfl
  · rw [e, e']
    refine before_cons _ _ _ _ ?_
    simp only [BitVec.toNat_ofNat]
    omega

/-- C116 fails for Base64 (both alphabets): what begins with one of the bytes F8 … FB comes before everything that begins with a smaller byte. -/
theorem C116_violated_base64 (x y : Byte) (r q sa sb : List Byte) (hx : 0xF8 ≤ x.toNat ∧ x.toNat ≤ 0xFB) (hy : y.toNat < 0xF8)
    (ha : Base64.toBase64Length (x :: r).length ≤ sa.length) (hb : Base64.toBase64Length (y :: q).length ≤ sb.length) :
    before (y :: q) (x :: r) = true ∧ ∃ ta tb, Base64.toBase64 (x :: r) (x :: r).length sa = .ok ta ∧ Base64.toBase64 (y :: q) (y :: q).length sb = .ok tb ∧
      before (ta.take (Base64.toBase64Length (x :: r).length)) (tb.take (Base64.toBase64Length (y :: q).length)) = true := by
  have h1 := C04_to_base64_rfc4648 (x :: r) sa ha
  have h2 := C04_to_base64_rfc4648 (y :: q) sb hb
  refine ⟨before_cons _ _ _ _ (by omega), _, _, h1.1, h2.1, ?_⟩
  rw [← h1.2, ← h2.2, take_over', take_over']
  obtain ⟨t, ht⟩ := first 6 (by decide) x r
  obtain ⟨u, hu⟩ := first 6 (by decide) y q
  rw [first6] at ht hu
  simp only [Base64Spec.encode, Base64Spec.encodeRaw, ht, hu, List.map_cons, List.cons_append]
  refine before_cons _ _ _ _ ?_
  have k1 : x.toNat / 4 = 62 := by omega
  have k2 : y.toNat / 4 < 62 := by omega
  rw [k1]
  have : ∀ i : Fin 62, (Base64Spec.char false 62).toNat < (Base64Spec.char false i.1).toNat := by decide +kernel
  exact this ⟨_, k2⟩

/-- The same for the URL-safe alphabet. -/
theorem C116_violated_base64_urlsafe (x y : Byte) (r q sa sb : List Byte) (hx : 0xF8 ≤ x.toNat ∧ x.toNat ≤ 0xFB) (hy : y.toNat < 0xF8)
    (ha : Base64.toBase64UrlsafeLength (x :: r).length ≤ sa.length) (hb : Base64.toBase64UrlsafeLength (y :: q).length ≤ sb.length) :
    before (y :: q) (x :: r) = true ∧ ∃ ta tb, Base64.toBase64Urlsafe (x :: r) (x :: r).length sa = .ok ta ∧ Base64.toBase64Urlsafe (y :: q) (y :: q).length sb = .ok tb ∧
      before (ta.take (Base64.toBase64UrlsafeLength (x :: r).length)) (tb.take (Base64.toBase64UrlsafeLength (y :: q).length)) = true := by
  have h1 := C05_to_base64_urlsafe_rfc4648 (x :: r) sa ha
  have h2 := C05_to_base64_urlsafe_rfc4648 (y :: q) sb hb
  refine ⟨before_cons _ _ _ _ (by omega), _, _, h1.1, h2.1, ?_⟩
  rw [← h1.2, ← h2.2, take_over', take_over']
  obtain ⟨t, ht⟩ := first 6 (by decide) x r
  obtain ⟨u, hu⟩ := first 6 (by decide) y q
  rw [first6] at ht hu
  simp only [Base64Spec.encodeRaw, ht, hu, List.map_cons]
  refine before_cons _ _ _ _ ?_
  have k1 : x.toNat / 4 = 62 := by omega
  have k2 : y.toNat / 4 < 62 := by omega
  rw [k1]
  have : ∀ i : Fin 62, (Base64Spec.char true 62).toNat < (Base64Spec.char true i.1).toNat := by decide +kernel
  exact this ⟨_, k2⟩

/-- C116 fails for Base32: what begins with a byte from D0 on comes before everything that begins with a smaller byte. -/
theorem C116_violated_base32 (x y : Byte) (r q sa sb : List Byte) (hx : 0xD0 ≤ x.toNat) (hy : y.toNat < 0xD0)
    (ha : Base32.toBase32Length (x :: r).length ≤ sa.length) (hb : Base32.toBase32Length (y :: q).length ≤ sb.length) :
    before (y :: q) (x :: r) = true ∧ ∃ ta tb, Base32.toBase32 (x :: r) (x :: r).length sa = .ok ta ∧ Base32.toBase32 (y :: q) (y :: q).length sb = .ok tb ∧
      before (ta.take (Base32.toBase32Length (x :: r).length)) (tb.take (Base32.toBase32Length (y :: q).length)) = true := by
  have h1 := C09_to_base32_rfc4648 (x :: r) sa ha
  have h2 := C09_to_base32_rfc4648 (y :: q) sb hb
  refine ⟨before_cons _ _ _ _ (by omega), _, _, h1.1, h2.1, ?_⟩
  rw [← h1.2, ← h2.2, take_over', take_over']
  obtain ⟨t, ht⟩ := first 5 (by decide) x r
  obtain ⟨u, hu⟩ := first 5 (by decide) y q
  rw [first5] at ht hu
  simp only [Base32Spec.encode, ht, hu, List.map_cons, List.cons_append]
  refine before_cons _ _ _ _ ?_
  have := x.isLt
  have : ∀ i j : Fin 32, 26 ≤ i.1 → j.1 < 26 → (Base32Spec.char i.1).toNat < (Base32Spec.char j.1).toNat := by decide +kernel
  exact this ⟨x.toNat / 8, by omega⟩ ⟨y.toNat / 8, by omega⟩ (by show 26 ≤ x.toNat / 8; omega) (by show y.toNat / 8 < 26; omega)

/-- C116 fails for Bech32 (and so for witness addresses): after the same values, the value 1 (`p`) comes before the value 0 (`q`). -/
theorem C116_violated_bech32 (H D E F oa ob : List Byte) (hD : ∀ v ∈ D, v.toNat < 32) (hE : ∀ v ∈ E, v.toNat < 32) (hF : ∀ v ∈ F, v.toNat < 32)
    (ha : H.length + 1 + (D ++ 0#8 :: E).length + 6 ≤ oa.length) (hb : H.length + 1 + (D ++ 1#8 :: F).length + 6 ≤ ob.length) :
    before (D ++ 0#8 :: E) (D ++ 1#8 :: F) = true ∧ ∃ ta tb, Bech32.encode H H.length (D ++ 0#8 :: E) (D ++ 0#8 :: E).length oa = .ok (over ta oa) ∧
      Bech32.encode H H.length (D ++ 1#8 :: F) (D ++ 1#8 :: F).length ob = .ok (over tb ob) ∧ before tb ta = true := by
  have v0 : ∀ v ∈ D ++ 0#8 :: E, v.toNat < 32 := by
    intro v hv; rcases List.mem_append.mp hv with h | h
    · exact hD v h
    · rcases List.mem_cons.mp h with rfl | h
      · decide
      · exact hE v h
  have v1 : ∀ v ∈ D ++ 1#8 :: F, v.toNat < 32 := by
    intro v hv; rcases List.mem_append.mp hv with h | h
    · exact hD v h
    · rcases List.mem_cons.mp h with rfl | h
      · decide
      · exact hF v h
  refine ⟨?_, Bech32Spec.encode H (D ++ 0#8 :: E), Bech32Spec.encode H (D ++ 1#8 :: F), (by have h := Bech32.encode_eq H H.length (D ++ 0#8 :: E) _ oa (Nat.le_refl _) (Nat.le_refl _) (by rwa [List.take_length]) (by omega); rwa [List.take_length, List.take_length] at h), (by have h := Bech32.encode_eq H H.length (D ++ 1#8 :: F) _ ob (Nat.le_refl _) (Nat.le_refl _) (by rwa [List.take_length]) (by omega); rwa [List.take_length, List.take_length] at h), ?_⟩
  · rw [before_common]; rfl
  · unfold Bech32Spec.encode
    simp only [List.append_assoc, List.map_append, before_common]
    exact before_cons (Bech32Spec.char 1#8) (Bech32Spec.char 0#8) _ _ (by decide)
