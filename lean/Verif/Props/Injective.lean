import Verif.Props.TextKinds
import Verif.Props.Base58Total
import Verif.Props.Base64
import Verif.Props.Hex
import Verif.Props.CompressInteger
import Verif.Props.Der
import Verif.Props.Ecdsa
/-!
C87: different values have different texts.  In every theorem two calls that write the same text were given the same value.
-/
open Address AddressSpec Exkey Key

theorem over_take (W out : List Byte) : (over W out).take W.length = W := by simp [over]

theorem over_inj {A B out : List Byte} (h : over A out = over B out) (hl : A.length = B.length) : A = B := by
  have := congrArg (List.take A.length) h
  rw [over_take, hl, over_take] at this
  exact this

/-! ## Codecs -/

/-- C87, hexadecimal; the two calls may use different letter cases. -/
theorem C87_hex (a b o o' r r' : List Byte) (u u' : Bool) (ho : Hex.toHexLength a.length ≤ o.length)
    (ho' : Hex.toHexLength b.length ≤ o'.length) (h : Hex.toHex a a.length o u = .ok r) (h' : Hex.toHex b b.length o' u' = .ok r')
    (same : r.take (Hex.toHexLength a.length) = r'.take (Hex.toHexLength b.length)) : a = b := by
  obtain ⟨h1, h2⟩ := C01_to_hex_writes_spec a o u ho
  obtain ⟨h3, h4⟩ := C01_to_hex_writes_spec b o' u' ho'
  rw [← Res.ok.inj (h1.symm.trans h), ← Res.ok.inj (h3.symm.trans h'), ← h2, ← h4, over_take, over_take] at same
  have := congrArg HexSpec.decode same
  rwa [Hex.decode_encode, Hex.decode_encode] at this

theorem base64_inj (a b : List Byte) (h : Base64Spec.encode a = Base64Spec.encode b) : a = b := by
  obtain ⟨s, h1, -, h2⟩ := C06_base64_roundtrip a (List.replicate (Base64.toBase64Length a.length) 0#8)
    (List.replicate (a.length + b.length) 0#8) (List.length_replicate ..) (by simp)
  obtain ⟨s', h3, -, h4⟩ := C06_base64_roundtrip b (List.replicate (Base64.toBase64Length b.length) 0#8)
    (List.replicate (a.length + b.length) 0#8) (List.length_replicate ..) (by simp)
  obtain ⟨g1, g2⟩ := C04_to_base64_rfc4648 a (List.replicate (Base64.toBase64Length a.length) 0#8) (by simp)
  obtain ⟨g3, g4⟩ := C04_to_base64_rfc4648 b (List.replicate (Base64.toBase64Length b.length) 0#8) (by simp)
  rw [_root_.over_all (by rw [List.length_replicate, g2])] at g1
  rw [_root_.over_all (by rw [List.length_replicate, g4])] at g3
  rw [← Res.ok.inj (g1.symm.trans h1)] at h2
  rw [← Res.ok.inj (g3.symm.trans h3), ← h] at h4
  obtain ⟨e1, e2⟩ := Prod.mk.inj (Res.ok.inj (h2.symm.trans h4))
  exact over_inj e1 e2

theorem base64url_inj (a b : List Byte) (h : Base64Spec.encodeRaw true a = Base64Spec.encodeRaw true b) : a = b := by
  obtain ⟨s, h1, -, h2⟩ := C06_base64_urlsafe_roundtrip a (List.replicate (Base64.toBase64UrlsafeLength a.length) 0#8)
    (List.replicate (a.length + b.length) 0#8) (List.length_replicate ..) (by simp)
  obtain ⟨s', h3, -, h4⟩ := C06_base64_urlsafe_roundtrip b (List.replicate (Base64.toBase64UrlsafeLength b.length) 0#8)
    (List.replicate (a.length + b.length) 0#8) (List.length_replicate ..) (by simp)
  obtain ⟨g1, g2⟩ := C05_to_base64_urlsafe_rfc4648 a (List.replicate (Base64.toBase64UrlsafeLength a.length) 0#8)
    (by simp)
  obtain ⟨g3, g4⟩ := C05_to_base64_urlsafe_rfc4648 b (List.replicate (Base64.toBase64UrlsafeLength b.length) 0#8)
    (by simp)
  rw [_root_.over_all (by rw [List.length_replicate, g2])] at g1
  rw [_root_.over_all (by rw [List.length_replicate, g4])] at g3
  rw [← Res.ok.inj (g1.symm.trans h1)] at h2
  rw [← Res.ok.inj (g3.symm.trans h3), ← h] at h4
  obtain ⟨e1, e2⟩ := Prod.mk.inj (Res.ok.inj (h2.symm.trans h4))
  exact over_inj e1 e2

/-- C87, Base64. -/
theorem C87_base64 (a b o o' r r' : List Byte) (ho : Base64.toBase64Length a.length ≤ o.length)
    (ho' : Base64.toBase64Length b.length ≤ o'.length) (h : Base64.toBase64 a a.length o = .ok r)
    (h' : Base64.toBase64 b b.length o' = .ok r')
    (same : r.take (Base64.toBase64Length a.length) = r'.take (Base64.toBase64Length b.length)) : a = b := by
  obtain ⟨h1, h2⟩ := C04_to_base64_rfc4648 a o ho
  obtain ⟨h3, h4⟩ := C04_to_base64_rfc4648 b o' ho'
  rw [← Res.ok.inj (h1.symm.trans h), ← Res.ok.inj (h3.symm.trans h'), ← h2, ← h4, over_take, over_take] at same
  exact base64_inj a b same

/-- C87, URL-safe Base64. -/
theorem C87_base64_urlsafe (a b o o' r r' : List Byte) (ho : Base64.toBase64UrlsafeLength a.length ≤ o.length)
    (ho' : Base64.toBase64UrlsafeLength b.length ≤ o'.length) (h : Base64.toBase64Urlsafe a a.length o = .ok r)
    (h' : Base64.toBase64Urlsafe b b.length o' = .ok r')
    (same : r.take (Base64.toBase64UrlsafeLength a.length) = r'.take (Base64.toBase64UrlsafeLength b.length)) : a = b := by
  obtain ⟨h1, h2⟩ := C05_to_base64_urlsafe_rfc4648 a o ho
  obtain ⟨h3, h4⟩ := C05_to_base64_urlsafe_rfc4648 b o' ho'
  rw [← Res.ok.inj (h1.symm.trans h), ← Res.ok.inj (h3.symm.trans h'), ← h2, ← h4, over_take, over_take] at same
  exact base64url_inj a b same

theorem base32_inj (a b : List Byte) (h : Base32Spec.encode a = Base32Spec.encode b) : a = b := by
  obtain ⟨s, h1, -, h2⟩ := C10_base32_roundtrip false a (List.replicate (Base32.toBase32Length a.length) 0#8) []
    (List.replicate (a.length + b.length) 0#8) (List.length_replicate ..) (by simp)
  obtain ⟨s', h3, -, h4⟩ := C10_base32_roundtrip false b (List.replicate (Base32.toBase32Length b.length) 0#8) []
    (List.replicate (a.length + b.length) 0#8) (List.length_replicate ..) (by simp)
  obtain ⟨g1, g2⟩ := C09_to_base32_rfc4648 a (List.replicate (Base32.toBase32Length a.length) 0#8) (by simp)
  obtain ⟨g3, g4⟩ := C09_to_base32_rfc4648 b (List.replicate (Base32.toBase32Length b.length) 0#8) (by simp)
  rw [_root_.over_all (by rw [List.length_replicate, g2])] at g1
  rw [_root_.over_all (by rw [List.length_replicate, g4])] at g3
  rw [← Res.ok.inj (g1.symm.trans h1)] at h2
  rw [← Res.ok.inj (g3.symm.trans h3), ← h] at h4
  obtain ⟨e1, e2⟩ := Prod.mk.inj (Res.ok.inj (h2.symm.trans h4))
  exact over_inj e1 e2

/-- C87, Base32. -/
theorem C87_base32 (a b o o' r r' : List Byte) (ho : Base32.toBase32Length a.length ≤ o.length)
    (ho' : Base32.toBase32Length b.length ≤ o'.length) (h : Base32.toBase32 a a.length o = .ok r)
    (h' : Base32.toBase32 b b.length o' = .ok r')
    (same : r.take (Base32.toBase32Length a.length) = r'.take (Base32.toBase32Length b.length)) : a = b := by
  obtain ⟨h1, h2⟩ := C09_to_base32_rfc4648 a o ho
  obtain ⟨h3, h4⟩ := C09_to_base32_rfc4648 b o' ho'
  rw [← Res.ok.inj (h1.symm.trans h), ← Res.ok.inj (h3.symm.trans h'), ← h2, ← h4, over_take, over_take] at same
  exact base32_inj a b same

theorem encodeRaw_inj (a b : List Byte) (h : Base32Spec.encodeRaw a = Base32Spec.encodeRaw b) : a = b := by
  have go : ∀ x y : List Byte, x.length ≤ y.length → Base32.fromBase32Raw false (Base32Spec.encodeRaw x ++ [0#8])
      (Base32Spec.encodeRaw x).length (List.replicate y.length 0#8) = .ok (over x (List.replicate y.length 0#8), x.length) := by
    intro x y hxy
    obtain ⟨g1, g2, g3⟩ := C09_to_base32_raw x (List.replicate ((8 * x.length + 4) / 5) 0#8) (by simp)
    rw [_root_.over_all (by rw [List.length_replicate, g2])] at g1
    obtain ⟨pre, post, hp, hpre⟩ := List.eq_append_cons_of_mem (show (0#8 : Byte) ∈ Base32Spec.encodeRaw x ++ [0#8] by simp)
    refine (C11_raw_roundtrip_partial false x _ _ pre [0#8] post _ _ (List.length_replicate ..) g1 hp (fun c hc => ⟨fun e => hpre (by rw [e] at hc; exact hc), fun e => ?_⟩)
      (by rw [List.length_replicate]; exact hxy)).2.2
    have hm : c ∈ Base32Spec.encodeRaw x ++ [0#8] := by rw [hp]; simp [hc]
    rw [List.mem_append, List.mem_singleton] at hm
    rcases hm with hm | hm
    · have := g3 c hm; rw [e] at this; revert this; decide
    · rw [hm] at e; revert e; decide
  rcases Nat.le_total a.length b.length with hl | hl
  · have h1 := go a b hl
    have h2 := go b b (Nat.le_refl _)
    rw [← h] at h2
    obtain ⟨e1, e2⟩ := Prod.mk.inj (Res.ok.inj (h1.symm.trans h2))
    exact over_inj e1 e2
  · have h1 := go a a (Nat.le_refl _)
    have h2 := go b a hl
    rw [← h] at h2
    obtain ⟨e1, e2⟩ := Prod.mk.inj (Res.ok.inj (h1.symm.trans h2))
    exact over_inj e1 e2

/-- C87, groups of five bits. -/
theorem C87_base32_raw (a b o o' r r' : List Byte) (n n' : Nat) (ho : (8 * a.length + 4) / 5 ≤ o.length)
    (ho' : (8 * b.length + 4) / 5 ≤ o'.length) (h : Base32.toBase32Raw a a.length o = .ok (r, n))
    (h' : Base32.toBase32Raw b b.length o' = .ok (r', n')) (same : r.take n = r'.take n') : a = b := by
  obtain ⟨h1, -, -⟩ := C09_to_base32_raw a o ho
  obtain ⟨h3, -, -⟩ := C09_to_base32_raw b o' ho'
  obtain ⟨e1, e2⟩ := Prod.mk.inj (Res.ok.inj (h1.symm.trans h))
  obtain ⟨e3, e4⟩ := Prod.mk.inj (Res.ok.inj (h3.symm.trans h'))
  rw [← e1, ← e2, ← e3, ← e4, over_take, over_take] at same
  exact encodeRaw_inj a b same

theorem base58_inj (a b : List Byte) (h : Base58Spec.encode a = Base58Spec.encode b) : a = b := by
  have := decode_encode58 a
  rw [h, decode_encode58] at this
  exact (Option.some.inj this).symm

/-- C87, Base58. -/
theorem C87_base58 (a b o o' r r' : List Byte) (n n' : Nat) (ho : Base58.toBase58Length a.length ≤ o.length)
    (ho' : Base58.toBase58Length b.length ≤ o'.length) (h : Base58.toBase58 a a.length o = .ok (r, n))
    (h' : Base58.toBase58 b b.length o' = .ok (r', n')) (same : r.take n = r'.take n') : a = b := by
  have text : ∀ x o r n, Base58.toBase58Length x.length ≤ o.length → Base58.toBase58 x x.length o = .ok (r, n) →
      r.take n = Base58Spec.encode x := by
    intro x o r n ho h
    obtain ⟨h1, h2⟩ := C13_to_base58_any x o
    by_cases hs : significant x ≤ 1556147570
    · obtain ⟨e1, e2⟩ := Prod.mk.inj (Res.ok.inj ((h1 hs (Nat.le_trans (encode58_length_le x) ho)).symm.trans h))
      rw [← e1, ← e2, over_take]
    · rw [h2 (by omega)] at h; cases h
  rw [text a o r n ho h, text b o' r' n' ho' h'] at same
  exact base58_inj a b same

theorem base58check_inj (p q : List Byte) (h : Base58CheckSpec.encode p = Base58CheckSpec.encode q) : p = q := by
  have := base58_inj _ _ h
  exact (List.append_inj' this (by rw [Base58Check.checksum_length, Base58Check.checksum_length])).1

/-- C87, Base58Check: the prefix followed by the data is determined. -/
theorem C87_base58check (host host' : Host) (pre a pre' b o o' r r' : List Byte) (n n' : Nat) (h61 : (pre ++ a).length < 2 ^ 61)
    (h61' : (pre' ++ b).length < 2 ^ 61) (ho : Base58Check.toBase58CheckLength a.length pre.length ≤ o.length)
    (ho' : Base58Check.toBase58CheckLength b.length pre'.length ≤ o'.length)
    (h : Base58Check.toBase58Check host a a.length pre pre.length o = .ok (r, n))
    (h' : Base58Check.toBase58Check host' b b.length pre' pre'.length o' = .ok (r', n')) (same : r.take n = r'.take n') :
    pre ++ a = pre' ++ b := by
  rw [List.length_append] at h61 h61'
  rw [Base58Check.toBase58Check_toBase58 host a _ pre _ o (Nat.le_refl _) (Nat.le_refl _) (by omega), List.take_length, List.take_length] at h
  rw [Base58Check.toBase58Check_toBase58 host' b _ pre' _ o' (Nat.le_refl _) (Nat.le_refl _) (by omega), List.take_length, List.take_length] at h'
  have := C87_base58 _ _ o o' r r' n n' ?_ ?_ h h' same
  · exact (List.append_inj' this (by rw [Base58Check.checksum_length, Base58Check.checksum_length])).1
  · rw [List.length_append, List.length_append, Base58Check.checksum_length]
    rw [Base58Check.toBase58CheckLength] at ho
    rw [show pre.length + a.length + 4 = a.length + 4 + pre.length by omega]; exact ho
  · rw [List.length_append, List.length_append, Base58Check.checksum_length]
    rw [Base58Check.toBase58CheckLength] at ho'
    rw [show pre'.length + b.length + 4 = b.length + 4 + pre'.length by omega]; exact ho'

theorem split_last {c : Byte} {H C H' C' : List Byte} (h : H ++ c :: C = H' ++ c :: C') (hC : c ∉ C) (hC' : c ∉ C') : H = H' ∧ C = C' := by
  rcases List.append_eq_append_iff.mp h with ⟨a, h1, h2⟩ | ⟨a, h1, h2⟩
  · cases a with
    | nil => rw [List.append_nil] at h1; exact ⟨h1.symm, (List.cons.inj h2).2⟩
    | cons x xs => exact absurd (show c ∈ C by rw [(List.cons.inj h2).2]; simp) hC
  · cases a with
    | nil => rw [List.append_nil] at h1; exact ⟨h1, (List.cons.inj h2).2.symm⟩
    | cons x xs => exact absurd (show c ∈ C' by rw [(List.cons.inj h2).2]; simp) hC'

theorem bech32_inj (H D H' D' : List Byte) (hD : ∀ v ∈ D, v.toNat < 32) (hD' : ∀ v ∈ D', v.toNat < 32)
    (h : Bech32Spec.encode H D = Bech32Spec.encode H' D') : H = H' ∧ D = D' := by
  have hs : ∀ H D : List Byte, (∀ v ∈ D, v.toNat < 32) → ∀ v ∈ D ++ Bech32Spec.checksum H D, v.toNat < 32 := by
    intro H D hD v hv
    rcases List.mem_append.mp hv with h | h
    · exact hD v h
    · exact Bech32.checksum_lt H D v h
  have h1 := hs H D hD
  have h2 := hs H' D' hD'
  rw [Bech32Spec.encode, Bech32Spec.encode, List.append_assoc, List.append_assoc, List.singleton_append, List.singleton_append] at h
  have no : ∀ L : List Byte, (∀ v ∈ L, v.toNat < 32) → 49#8 ∉ L.map Bech32Spec.char := by
    intro L hL hm
    obtain ⟨v, hv, e⟩ := List.mem_map.mp hm
    exact char_ne_49 v (hL v hv) e
  obtain ⟨e1, e2⟩ := split_last h (no _ h1) (no _ h2)
  exact ⟨e1, (List.append_inj' (map_char_inj _ _ h1 h2 e2) (by rw [Bech32.checksum_length, Bech32.checksum_length])).1⟩

/-- C87, Bech32, for any human-readable parts. -/
theorem C87_bech32 (H D H' D' o o' r r' : List Byte) (hD : ∀ v ∈ D, v.toNat < 32) (hD' : ∀ v ∈ D', v.toNat < 32)
    (ho : Bech32.encodeLength H.length D.length ≤ o.length) (ho' : Bech32.encodeLength H'.length D'.length ≤ o'.length)
    (h : Bech32.encode H H.length D D.length o = .ok r) (h' : Bech32.encode H' H'.length D' D'.length o' = .ok r')
    (same : r.take (Bech32.encodeLength H.length D.length) = r'.take (Bech32.encodeLength H'.length D'.length)) : H = H' ∧ D = D' := by
  have text : ∀ H D o r : List Byte, (∀ v ∈ D, v.toNat < 32) → Bech32.encodeLength H.length D.length ≤ o.length →
      Bech32.encode H H.length D D.length o = .ok r → r.take (Bech32.encodeLength H.length D.length) = Bech32Spec.encode H D := by
    intro H D o r hD ho h
    rw [Bech32.encode_eq H _ D _ o (Nat.le_refl _) (Nat.le_refl _) (by rw [List.take_length]; exact hD) ho, List.take_length,
      List.take_length] at h
    rw [← Res.ok.inj h, Bech32.encodeLength, ← Bech32.encode_length H D, over_take]
  rw [text H D o r hD ho h, text H' D' o' r' hD' ho' h'] at same
  exact bech32_inj H D H' D' hD hD' same

/-- C87, varints. -/
theorem C87_varint (t t' buf buf' o o' : List Byte) (v w : BitVec 64) (n m : Nat) (ht : t.length = 10) (ht' : t'.length = 10)
    (h : CompressInteger.encodeVarint t v buf = .ok (o, n))
    (h' : CompressInteger.encodeVarint t' w buf' = .ok (o', m)) (same : o.take n = o'.take m) : v = w := by
  have h1 := C20_varint_roundtrip t buf o [] v n (n + m) ht h (by omega)
  have h2 := C20_varint_roundtrip t' buf' o' [] w m (n + m) ht' h' (by omega)
  rw [same] at h1
  exact (Prod.mk.inj (Res.ok.inj (h1.symm.trans h2))).1

/-- C87, zigzag (defined except for the smallest integer, C24). -/
theorem C87_zigzag (t t' buf buf' o o' : List Byte) (v w : BitVec 64) (n m : Nat) (ht : t.length = 10) (ht' : t'.length = 10)
    (h : CompressInteger.encodeZigzag t v buf = .ok (o, n))
    (h' : CompressInteger.encodeZigzag t' w buf' = .ok (o', m)) (same : o.take n = o'.take m) : v = w := by
  have go : ∀ (t buf o : List Byte) (v : BitVec 64) (n : Nat), t.length = 10 →
      CompressInteger.encodeZigzag t v buf = .ok (o, n) → CompressInteger.decodeZigzag (o.take n ++ []) 10 0#64 = .ok (v, n) := by
    intro t buf o v n ht h
    have hv : v.toInt ≠ -2 ^ 63 := by
      intro e
      rw [(C24_encode_zigzag_exact t buf v).1 e] at h
      cases h
    obtain ⟨W, -, -, -, h10, hE, hD⟩ := C24_zigzag_roundtrip_partial v hv
    by_cases hb : W.length ≤ buf.length
    · obtain ⟨e1, e2⟩ := Prod.mk.inj (Res.ok.inj (((hE t buf ht).1 hb).symm.trans h))
      rw [← e1, ← e2, over_take]; exact hD [] 10 0#64 h10
    · rw [(hE t buf ht).2 (by omega)] at h; cases h
  have h1 := go t buf o v n ht h
  have h2 := go t' buf' o' w m ht' h'
  rw [same] at h1
  exact (Prod.mk.inj (Res.ok.inj (h1.symm.trans h2))).1

open SecpLib Secp256k1 in
/-- C87, secret keys in DER, either form. -/
theorem C87_key_der (nd nd' : Bool) (key key' o o' r r' : List Byte) (c c' : Bool) (hv : ValidKey key) (hv' : ValidKey key')
    (ho : (if c then 214 else 279) ≤ o.length) (ho' : (if c' then 214 else 279) ≤ o'.length)
    (h : keyEncode nd key o (if c then 214 else 279) = .ok (r, true)) (h' : keyEncode nd' key' o' (if c' then 214 else 279) = .ok (r', true))
    (same : r.take (if c then 214 else 279) = r'.take (if c' then 214 else 279)) : key = key' ∧ c = c' := by
  obtain ⟨e, h1, h2, h3⟩ := C47_der_roundtrip nd key o (List.replicate 32 0#8) [] c hv ho (by decide)
  obtain ⟨e', h4, h5, h6⟩ := C47_der_roundtrip nd' key' o' (List.replicate 32 0#8) [] c' hv' ho' (by decide)
  rw [← (Prod.mk.inj (Res.ok.inj (h2.symm.trans h))).1, ← (Prod.mk.inj (Res.ok.inj (h5.symm.trans h'))).1, ← h1, ← h4, over_take,
    over_take] at same
  rw [← same] at h6 h4
  refine ⟨over_inj (Prod.mk.inj (Res.ok.inj (h3.symm.trans h6))).1 (hv.1.trans hv'.1.symm), ?_⟩
  rw [h1] at h4
  cases c <;> cases c' <;> first | rfl | (revert h4; decide)

open SecpLib Secp256k1 in
/-- C87, public keys, either form. -/
theorem C87_pubkey (nd nd' : Bool) (P Q : Nat × Nat) (o o' r r' : List Byte) (c c' : Bool) (hP : OnCurve (some P)) (hQ : OnCurve (some Q))
    (ho : (if c then 33 else 65) ≤ o.length) (ho' : (if c' then 33 else 65) ≤ o'.length)
    (h : pubkeyEncode nd (some P) o (if c then 33 else 65) = .ok (r, true))
    (h' : pubkeyEncode nd' (some Q) o' (if c' then 33 else 65) = .ok (r', true))
    (same : r.take (if c then 33 else 65) = r'.take (if c' then 33 else 65)) : P = Q ∧ c = c' := by
  obtain ⟨x, y⟩ := P
  obtain ⟨x', y'⟩ := Q
  obtain ⟨e, he, h1, h2, -⟩ := C67_pubkey_roundtrip nd x y o c hP ho
  obtain ⟨e', he', h4, h5, -⟩ := C67_pubkey_roundtrip nd' x' y' o' c' hQ ho'
  obtain ⟨f, hf, -, -, g3⟩ := C67_pubkey_roundtrip true x y o c hP ho
  obtain ⟨f', hf', -, -, g6⟩ := C67_pubkey_roundtrip true x' y' o' c' hQ ho'
  rw [← (Prod.mk.inj (Res.ok.inj (h2.symm.trans h))).1, ← (Prod.mk.inj (Res.ok.inj (h5.symm.trans h'))).1, ← h1, ← h4, over_take,
    over_take] at same
  rw [hf, ← he] at g3
  rw [hf', ← he', ← same] at g6
  refine ⟨Option.some.inj (Prod.mk.inj (Res.ok.inj (g3.symm.trans g6))).1, ?_⟩
  rw [← same, h1] at h4
  cases c <;> cases c' <;> first | rfl | (revert h4; decide)

open SecpLib Secp256k1 in
/-- C87, signatures. -/
theorem C87_signature (s t : Sig) (o o' r r' : List Byte) (k k' : Nat) (hs : s.r < n ∧ s.s < n) (ht : t.r < n ∧ t.s < n)
    (ho : 72 ≤ o.length) (ho' : 72 ≤ o'.length) (h : signatureEncode s o = .ok (r, k)) (h' : signatureEncode t o' = .ok (r', k'))
    (same : r.take k = r'.take k') : s = t := by
  obtain ⟨h1, -, h2⟩ := C68_signature_roundtrip s o [] hs.1 hs.2 ho (by decide)
  obtain ⟨h3, -, h4⟩ := C68_signature_roundtrip t o' [] ht.1 ht.2 ho' (by decide)
  obtain ⟨e1, e2⟩ := Prod.mk.inj (Res.ok.inj (h1.symm.trans h))
  obtain ⟨e3, e4⟩ := Prod.mk.inj (Res.ok.inj (h3.symm.trans h'))
  rw [← e1, ← e2, ← e3, ← e4, over_take, over_take] at same
  rw [← same] at h4
  exact (Prod.mk.inj (Res.ok.inj (h2.symm.trans h4))).1

theorem privBytes_inj (k k' : ExKey) (hk : BufPriv k) (hk' : BufPriv k') (h : privBytes k = privBytes k') : k = k' := by
  have go : ∀ x : ExKey, BufPriv x → exkeyDecode .little (privBytes x) k = .ok x := by
    intro x hx
    obtain ⟨out, h1, h2⟩ := (C53_roundtrip .little .little x k ⟨x.ext, x.key ++ [0#8]⟩ ⟨x.ext, x.key ++ [0#8]⟩ (List.replicate 74 0#8) hx hk
      ⟨by rw [List.length_append, hx.1]; rfl, hx.2⟩ ⟨by rw [List.length_append, hx.1]; rfl, hx.2⟩ (by decide)).1
    have h3 := (C53_encode_layout .little x ⟨x.ext, x.key ++ [0#8]⟩ (List.replicate 74 0#8) hx
      ⟨by rw [List.length_append, hx.1]; rfl, hx.2⟩ (by decide)).1
    rw [_root_.over_all (by rw [privBytes_length x hx]; rfl)] at h3
    rwa [← Res.ok.inj (h3.symm.trans h1)] at h2
  have h1 := go k hk
  have h2 := go k' hk'
  rw [← h] at h2
  exact Res.ok.inj (h1.symm.trans h2)

theorem pubBytes_inj (k k' : ExPubkey) (hk : BufPub k) (hk' : BufPub k') (h : pubBytes k = pubBytes k') : k = k' := by
  have go : ∀ x : ExPubkey, BufPub x → expubkeyDecode .little (pubBytes x) k = .ok x := by
    intro x hx
    have hl : ∀ x : ExPubkey, BufPub x → BufPriv ⟨x.ext, x.pubkey.take 32⟩ := fun x hx =>
      ⟨by show (x.pubkey.take 32).length = 32; rw [List.length_take, hx.1]; rfl, hx.2⟩
    obtain ⟨out, h1, h2⟩ := (C53_roundtrip .little .little ⟨x.ext, x.pubkey.take 32⟩ ⟨x.ext, x.pubkey.take 32⟩ x k (List.replicate 74 0#8)
      (hl x hx) (hl x hx) hx hk (by decide)).2
    have h3 := (C53_encode_layout .little ⟨x.ext, x.pubkey.take 32⟩ x (List.replicate 74 0#8) (hl x hx) hx (by decide)).2
    rw [_root_.over_all (by rw [pubBytes_length x hx]; rfl)] at h3
    rwa [← Res.ok.inj (h3.symm.trans h1)] at h2
  have h1 := go k hk
  have h2 := go k' hk'
  rw [← h] at h2
  exact Res.ok.inj (h1.symm.trans h2)

/-- C87, extended keys as 74 bytes. -/
theorem C87_extended (host host' : Host) (k k' : ExKey) (p p' : ExPubkey) (o o' r r' q q' : List Byte) (hk : BufPriv k) (hk' : BufPriv k')
    (hp : BufPub p) (hp' : BufPub p') (ho : 74 ≤ o.length) (ho' : 74 ≤ o'.length)
    (h1 : exkeyEncode host k o = .ok r) (h2 : exkeyEncode host' k' o' = .ok r')
    (h3 : expubkeyEncode host p o = .ok q) (h4 : expubkeyEncode host' p' o' = .ok q') :
    (r.take 74 = r'.take 74 → k = k') ∧ (q.take 74 = q'.take 74 → p = p') := by
  obtain ⟨a1, a2⟩ := C53_encode_layout host k p o hk hp ho
  obtain ⟨a3, a4⟩ := C53_encode_layout host' k' p' o' hk' hp' ho'
  constructor
  · intro e
    rw [← Res.ok.inj (a1.symm.trans h1), ← Res.ok.inj (a3.symm.trans h2)] at e
    have e1 := over_take (privBytes k) o
    have e2 := over_take (privBytes k') o'
    rw [privBytes_length k hk] at e1
    rw [privBytes_length k' hk'] at e2
    rw [e1, e2] at e
    exact privBytes_inj k k' hk hk' e
  · intro e
    rw [← Res.ok.inj (a2.symm.trans h3), ← Res.ok.inj (a4.symm.trans h4)] at e
    have e1 := over_take (pubBytes p) o
    have e2 := over_take (pubBytes p') o'
    rw [pubBytes_length p hp] at e1
    rw [pubBytes_length p' hp'] at e2
    rw [e1, e2] at e
    exact pubBytes_inj p p' hp hp' e

/-! ## Addresses, secret keys and extended keys -/

/-- What can be written as a text of Bitcoin: five kinds of address, a secret key with the flag for compression, extended keys. -/
inductive Item where
  | pubkeyHash (hash : List Byte)
  | scriptHash (hash : List Byte)
  | witnessKeyhash (hash : List Byte)
  | witnessScripthash (hash : List Byte)
  | witness (version : Byte) (program : List Byte)
  | secret (key : List Byte) (compressed : Bool)
  | extSecret (k : ExKey)
  | extPublic (k : ExPubkey)

namespace Item

/-- The sizes these things have. -/
def Wf : Item → Prop
  | pubkeyHash h | scriptHash h | witnessKeyhash h => h.length = 20
  | witnessScripthash h => h.length = 32
  | witness v p => 1 ≤ v.toNat ∧ v.toNat ≤ 16 ∧ 2 ≤ p.length ∧ p.length ≤ 40
  | secret k _ => k.length = 32
  | extSecret k => BufPriv k
  | extPublic k => BufPub k

/-- The call that writes the text: memory at `out` and length. -/
def write (nd : Bool) (host : Host) (net : Network) (out : List Byte) : Item → Res (List Byte × Nat)
  | pubkeyHash h => toAddressPubkey host h h.length out out.length net.param
  | scriptHash h => toAddressScript host h h.length out out.length net.param
  | witnessKeyhash h => toAddressWitnessV0Keyhash nd h h.length out out.length net.param
  | witnessScripthash h => toAddressWitnessV0Scripthash nd h h.length out out.length net.param
  | witness v p => toAddressWitnessUnknown (v :: p) (p.length + 1) out out.length net.param
  | secret k c => keyToString host k out c net.param
  | extSecret k => exkeyToString host k out net.param
  | extPublic k => expubkeyToString host k out net.param

/-- Networks whose texts look alike: witness addresses tell all three networks apart, the others only the main network from the two for
testing. -/
def Alike (net net' : Network) : Item → Prop
  | witnessKeyhash _ | witnessScripthash _ | witness _ _ => net = net'
  | _ => (net = .main) ↔ (net' = .main)

/-- The text. -/
def text (net : Network) : Item → List Byte
  | pubkeyHash h => base58 net.pubkeyVersion h
  | scriptHash h => base58 net.scriptVersion h
  | witnessKeyhash h => AddressSpec.witness net.hrp 0#8 h
  | witnessScripthash h => AddressSpec.witness net.hrp 0#8 h
  | witness v p => AddressSpec.witness net.hrp v p
  | secret k c => WifSpec.wif net k c
  | extSecret k => xprv net k
  | extPublic k => xpub net k

theorem write_eq (nd : Bool) (host : Host) (net : Network) (out : List Byte) (i : Item) (hi : i.Wf) (ho : 128 ≤ out.length) :
    i.write nd host net out = .ok (over (i.text net) out, (i.text net).length) := by
  have hrp : net.hrp.length ≤ 4 := by cases net <;> decide
  cases i with
  | pubkeyHash h =>
    have hi : h.length = 20 := hi
    have := (C41_base58_encoders net host h out out.length (by omega) (Nat.le_refl _)).1
    rw [if_neg (by rw [hi]; have : Base58Check.toBase58CheckLength 20 1 ≤ 128 := by decide
                   omega)] at this
    exact this
  | scriptHash h =>
    have hi : h.length = 20 := hi
    have := (C41_base58_encoders net host h out out.length (by omega) (Nat.le_refl _)).2.1
    rw [if_neg (by rw [hi]; have : Base58Check.toBase58CheckLength 20 1 ≤ 128 := by decide
                   omega)] at this
    exact this
  | witnessKeyhash h =>
    have hi : h.length = 20 := hi
    have := (C41_witness_v0_encoders net nd h out out.length (Nat.le_refl _)).1
    rw [if_pos hi, if_neg (by rw [C41_witness_length]; omega)] at this
    exact this
  | witnessScripthash h =>
    have hi : h.length = 32 := hi
    have := (C41_witness_v0_encoders net nd h out out.length (Nat.le_refl _)).2
    rw [if_pos hi, if_neg (by rw [C41_witness_length]; omega)] at this
    exact this
  | witness v p =>
    obtain ⟨h1, h2, h3, h4⟩ := hi
    have := (C41_witness_unknown_encoder net (v :: p) out out.length (Nat.le_refl _)).2 v p rfl h3 h4
    rw [if_pos ⟨h1, h2, by rw [C41_witness_length]; omega⟩] at this
    exact this
  | secret k c =>
    exact C45_key_to_string host net k out c hi (by have : Base58Check.toBase58CheckLength 32 8 ≤ 128 := by decide
                                                    omega)
  | extSecret k =>
    have hi : BufPriv k := hi
    exact (C54_to_string host net k ⟨k.ext, k.key ++ [0#8]⟩ out hi ⟨by rw [List.length_append, hi.1]; rfl, hi.2⟩
      (by have : Base58Check.toBase58CheckLength 74 8 ≤ 128 := by decide
          omega)).1
  | extPublic k =>
    have hi : BufPub k := hi
    exact (C54_to_string host net ⟨k.ext, k.pubkey.take 32⟩ k out ⟨by show (k.pubkey.take 32).length = 32; rw [List.length_take, hi.1]; rfl, hi.2⟩ hi
      (by have : Base58Check.toBase58CheckLength 74 8 ≤ 128 := by decide
          omega)).2

end Item

namespace Item

/-- A witness address begins with `b` or `tb`. -/
theorem witness_head (net : Network) (v : Byte) (p : List Byte) :
    ∃ t, AddressSpec.witness net.hrp v p = 98#8 :: t ∨ AddressSpec.witness net.hrp v p = 116#8 :: 98#8 :: t := by
  rw [AddressSpec.witness, Bech32Spec.encode]
  cases net
  · exact ⟨_, .inl rfl⟩
  · exact ⟨_, .inr rfl⟩
  · exact ⟨_, .inl rfl⟩

/-- A text of another kind does not. -/
def OtherHead (t : List Byte) : Prop := ∀ u, t ≠ 98#8 :: u ∧ t ≠ 116#8 :: 98#8 :: u

theorem other_begins (set : String) (n : Nat) (t : List Byte) (h : Begins set n t) (hs : ∀ c ∈ set.toList, chr c ≠ 98#8 ∧ chr c ≠ 116#8) :
    OtherHead t := by
  obtain ⟨c, hc, u, rfl, -⟩ := h
  exact fun w => ⟨fun e => (hs c hc).1 (List.cons.inj e).1, fun e => (hs c hc).2 (List.cons.inj e).1⟩

theorem other_word (word : String) (a b : Byte) (r : List Byte) (n : Nat) (t : List Byte) (h : BeginsWord word n t)
    (hw : cstr word = a :: b :: r) (ha : a ≠ 98#8) (hb : b ≠ 98#8) : OtherHead t := by
  obtain ⟨u, rfl, -⟩ := h
  rw [hw]
  exact fun w => ⟨fun e => ha (List.cons.inj e).1, fun e => hb (List.cons.inj (List.cons.inj e).2).1⟩

/-- The bytes behind a Base58Check text. -/
def payload (net : Network) : Item → Option (List Byte)
  | pubkeyHash h => some (net.pubkeyVersion :: h)
  | scriptHash h => some (net.scriptVersion :: h)
  | secret k c => some (WifSpec.payload net k c)
  | extSecret k => some (net.extSecret ++ privBytes k)
  | extPublic k => some (net.extPublic ++ pubBytes k)
  | _ => none

/-- Version and program of a witness address. -/
def program : Item → Option (Byte × List Byte)
  | witnessKeyhash h | witnessScripthash h => some (0#8, h)
  | witness v p => some (v, p)
  | _ => none

theorem text_payload (net : Network) (i : Item) (p : List Byte) (h : i.payload net = some p) : i.text net = Base58CheckSpec.encode p := by
  cases i <;> cases h <;> rfl

theorem text_program (net : Network) (i : Item) (v : Byte) (p : List Byte) (h : i.program = some (v, p)) :
    i.text net = AddressSpec.witness net.hrp v p := by
  cases i <;> cases h <;> rfl

theorem either (net : Network) (i : Item) : (∃ p, i.payload net = some p) ∨ ∃ v p, i.program = some (v, p) := by
  cases i <;> first | exact .inl ⟨_, rfl⟩ | exact .inr ⟨_, _, rfl⟩

theorem other_head (net : Network) (i : Item) (hi : i.Wf) (hp : ∃ p, i.payload net = some p) : OtherHead (i.text net) := by
  have out : ∃ out : List Byte, out.length = 200 := ⟨List.replicate 200 0#8, List.length_replicate ..⟩
  obtain ⟨out, ho⟩ := out
  have e1 : Base58Check.toBase58CheckLength 32 8 ≤ 128 := by decide
  have e2 : Base58Check.toBase58CheckLength 74 8 ≤ 128 := by decide
  have txt : ∀ {i : Item} {q : List Byte}, i.Wf → i.write true .little net out = .ok (over q out, q.length) → q = i.text net := by
    intro i q hi h
    obtain ⟨a, b⟩ := Prod.mk.inj (Res.ok.inj ((write_eq true .little net out i hi (by omega)).symm.trans h))
    exact (over_inj a b).symm
  cases i with
  | pubkeyHash h =>
    have hi : h.length = 20 := hi
    obtain ⟨p, s, h1, -, h2⟩ := C73_base58_addresses net .little h out hi (by omega)
    rw [← hi] at h1
    rw [← txt (i := .pubkeyHash h) hi h1]
    cases net with
    | main =>
      obtain ⟨h2, -, -, -⟩ := h2
      intro u
      constructor <;> intro e <;> rw [e, List.head?_cons] at h2 <;> exact absurd (Option.some.inj h2) (by decide)
    | test => exact other_begins _ _ _ h2.1 (by decide)
    | reg => exact other_begins _ _ _ h2.1 (by decide)
  | scriptHash h =>
    have hi : h.length = 20 := hi
    obtain ⟨p, s, -, h1, h2⟩ := C73_base58_addresses net .little h out hi (by omega)
    rw [← hi] at h1
    rw [← txt (i := .scriptHash h) hi h1]
    cases net with
    | main => exact other_begins _ _ _ h2.2.2.2 (by decide)
    | test => exact other_begins _ _ _ h2.2 (by decide)
    | reg => exact other_begins _ _ _ h2.2 (by decide)
  | witnessKeyhash h => obtain ⟨_, h⟩ := hp; cases h
  | witnessScripthash h => obtain ⟨_, h⟩ := hp; cases h
  | witness v p => obtain ⟨_, h⟩ := hp; cases h
  | secret k c =>
    obtain ⟨u, z, h1, h2, h3⟩ := C73_secret_keys net .little k out hi (by omega)
    cases c with
    | false =>
      rw [← txt (i := .secret k false) hi h1]
      cases net with
      | main => exact other_begins _ _ _ h3.1 (by decide)
      | test => exact other_begins _ _ _ h3.1 (by decide)
      | reg => exact other_begins _ _ _ h3.1 (by decide)
    | true =>
      rw [← txt (i := .secret k true) hi h2]
      cases net with
      | main => exact other_begins _ _ _ h3.2 (by decide)
      | test => exact other_begins _ _ _ h3.2 (by decide)
      | reg => exact other_begins _ _ _ h3.2 (by decide)
  | extSecret k =>
    have hi' : BufPriv k := hi
    obtain ⟨s, p, h1, -, h2, -⟩ := C73_extended_keys net .little k ⟨k.ext, k.key ++ [0#8]⟩ out hi
      ⟨by rw [List.length_append, hi'.1]; rfl, hi'.2⟩ (by omega)
    rw [← txt (i := .extSecret k) hi h1]
    cases net with
    | main => exact other_word _ _ _ _ _ _ h2 rfl (by decide) (by decide)
    | test => exact other_word _ _ _ _ _ _ h2 rfl (by decide) (by decide)
    | reg => exact other_word _ _ _ _ _ _ h2 rfl (by decide) (by decide)
  | extPublic k =>
    have hi' : BufPub k := hi
    obtain ⟨s, p, -, h1, -, h2⟩ := C73_extended_keys net .little ⟨k.ext, k.pubkey.take 32⟩ k out
      ⟨by show (k.pubkey.take 32).length = 32; rw [List.length_take, hi'.1]; rfl, hi'.2⟩ hi (by omega)
    rw [← txt (i := .extPublic k) hi h1]
    cases net with
    | main => exact other_word _ _ _ _ _ _ h2 rfl (by decide) (by decide)
    | test => exact other_word _ _ _ _ _ _ h2 rfl (by decide) (by decide)
    | reg => exact other_word _ _ _ _ _ _ h2 rfl (by decide) (by decide)

theorem payload_inj (net net' : Network) (i i' : Item) (hi : i.Wf) (hi' : i'.Wf) (p : List Byte) (h : i.payload net = some p)
    (h' : i'.payload net' = some p) : i = i' ∧ i.Alike net net' := by
  have len : ∀ (net : Network) (i : Item) (p : List Byte), i.Wf → i.payload net = some p → p.length =
      match i with | pubkeyHash _ | scriptHash _ => 21 | secret _ c => if c then 34 else 33 | extSecret _ | extPublic _ => 78 | _ => 0 := by
    intro net i p hi h
    obtain ⟨-, -, -, -, -, -, n1, n2⟩ := net_ext net
    cases i with
    | pubkeyHash x => have hi : x.length = 20 := hi; cases h; rw [List.length_cons, hi]
    | scriptHash x => have hi : x.length = 20 := hi; cases h; rw [List.length_cons, hi]
    | secret x c =>
      have hi : x.length = 32 := hi
      cases h
      rw [WifSpec.payload, List.length_cons, List.length_append, hi]
      cases c <;> rfl
    | extSecret k => cases h; rw [List.length_append, n1, privBytes_length k hi]
    | extPublic k => cases h; rw [List.length_append, n2, pubBytes_length k hi]
    | witnessKeyhash _ => cases h
    | witnessScripthash _ => cases h
    | witness _ _ => cases h
  have l1 := len net i p hi h
  have l2 := len net' i' p hi' h'
  rw [l1] at l2
  cases i with
  | pubkeyHash x =>
    cases i' with
    | pubkeyHash y =>
      obtain ⟨e1, e2⟩ := List.cons.inj (Option.some.inj (h.trans h'.symm))
      exact ⟨by rw [e2], by show (net = .main) ↔ (net' = .main); revert e1; cases net <;> cases net' <;> decide⟩
    | scriptHash y =>
      obtain ⟨e1, e2⟩ := List.cons.inj (Option.some.inj (h.trans h'.symm))
      exact absurd e1 (by cases net <;> cases net' <;> decide)
    | secret y c => exfalso; cases c <;> (simp at l2)
    | extSecret y => simp at l2
    | extPublic y => simp at l2
    | witnessKeyhash _ => cases h'
    | witnessScripthash _ => cases h'
    | witness _ _ => cases h'
  | scriptHash x =>
    cases i' with
    | scriptHash y =>
      obtain ⟨e1, e2⟩ := List.cons.inj (Option.some.inj (h.trans h'.symm))
      exact ⟨by rw [e2], by show (net = .main) ↔ (net' = .main); revert e1; cases net <;> cases net' <;> decide⟩
    | pubkeyHash y =>
      obtain ⟨e1, e2⟩ := List.cons.inj (Option.some.inj (h.trans h'.symm))
      exact absurd e1 (by cases net <;> cases net' <;> decide)
    | secret y c => exfalso; cases c <;> (simp at l2)
    | extSecret y => simp at l2
    | extPublic y => simp at l2
    | witnessKeyhash _ => cases h'
    | witnessScripthash _ => cases h'
    | witness _ _ => cases h'
  | secret x c =>
    cases i' with
    | secret y d =>
      have hc : c = d := by cases c <;> cases d <;> first | rfl | (simp at l2)
      obtain ⟨e1, e2⟩ := List.cons.inj (Option.some.inj (h.trans h'.symm))
      rw [hc] at e2
      exact ⟨by rw [List.append_cancel_right e2, hc], by show (net = .main) ↔ (net' = .main); revert e1; cases net <;> cases net' <;> decide⟩
    | pubkeyHash y => exfalso; cases c <;> (simp at l2)
    | scriptHash y => exfalso; cases c <;> (simp at l2)
    | extSecret y => exfalso; cases c <;> (simp at l2)
    | extPublic y => exfalso; cases c <;> (simp at l2)
    | witnessKeyhash _ => cases h'
    | witnessScripthash _ => cases h'
    | witness _ _ => cases h'
  | extSecret x =>
    cases i' with
    | extSecret y =>
      obtain ⟨e1, e2⟩ := List.append_inj (Option.some.inj (h.trans h'.symm)) (by rw [(net_ext net).2.2.2.2.2.2.1, (net_ext net').2.2.2.2.2.2.1])
      exact ⟨by rw [privBytes_inj x y hi hi' e2], by show (net = .main) ↔ (net' = .main); revert e1; cases net <;> cases net' <;> decide⟩
    | extPublic y =>
      obtain ⟨e1, e2⟩ := List.append_inj (Option.some.inj (h.trans h'.symm)) (by rw [(net_ext net).2.2.2.2.2.2.1, (net_ext net').2.2.2.2.2.2.2])
      exact absurd e1 (by cases net <;> cases net' <;> decide)
    | secret y c => exfalso; cases c <;> (simp at l2)
    | pubkeyHash y => simp at l2
    | scriptHash y => simp at l2
    | witnessKeyhash _ => cases h'
    | witnessScripthash _ => cases h'
    | witness _ _ => cases h'
  | extPublic x =>
    cases i' with
    | extPublic y =>
      obtain ⟨e1, e2⟩ := List.append_inj (Option.some.inj (h.trans h'.symm)) (by rw [(net_ext net).2.2.2.2.2.2.2, (net_ext net').2.2.2.2.2.2.2])
      exact ⟨by rw [pubBytes_inj x y hi hi' e2], by show (net = .main) ↔ (net' = .main); revert e1; cases net <;> cases net' <;> decide⟩
    | extSecret y =>
      obtain ⟨e1, e2⟩ := List.append_inj (Option.some.inj (h.trans h'.symm)) (by rw [(net_ext net).2.2.2.2.2.2.2, (net_ext net').2.2.2.2.2.2.1])
      exact absurd e1 (by cases net <;> cases net' <;> decide)
    | secret y c => exfalso; cases c <;> (simp at l2)
    | pubkeyHash y => simp at l2
    | scriptHash y => simp at l2
    | witnessKeyhash _ => cases h'
    | witnessScripthash _ => cases h'
    | witness _ _ => cases h'
  | witnessKeyhash _ => cases h
  | witnessScripthash _ => cases h
  | witness _ _ => cases h

theorem program_inj (i i' : Item) (hi : i.Wf) (hi' : i'.Wf) (v : Byte) (p : List Byte) (h : i.program = some (v, p))
    (h' : i'.program = some (v, p)) : i = i' := by
  cases i <;> cases h <;> cases i' <;> first | rfl | cases h' <;> first | rfl | skip
  · exact absurd (hi.symm.trans hi') (by decide)
  · exact absurd hi'.1 (by decide)
  · exact absurd (hi.symm.trans hi') (by decide)
  · exact absurd hi'.1 (by decide)
  · exact absurd hi.1 (by decide)
  · exact absurd hi.1 (by decide)

theorem text_inj (net net' : Network) (i i' : Item) (hi : i.Wf) (hi' : i'.Wf) (h : i.text net = i'.text net') :
    i = i' ∧ i.Alike net net' := by
  rcases either net i with ⟨p, hp⟩ | ⟨v, p, hp⟩
  · rcases either net' i' with ⟨q, hq⟩ | ⟨w, q, hq⟩
    · rw [text_payload net i p hp, text_payload net' i' q hq] at h
      rw [← base58check_inj p q h] at hq
      exact payload_inj net net' i i' hi hi' p hp hq
    · have := other_head net i hi ⟨p, hp⟩
      obtain ⟨t, ht⟩ := witness_head net' w q
      rw [h, text_program net' i' w q hq] at this
      exact absurd ht (not_or.mpr (this t))
  · rcases either net' i' with ⟨q, hq⟩ | ⟨w, q, hq⟩
    · have := other_head net' i' hi' ⟨q, hq⟩
      obtain ⟨t, ht⟩ := witness_head net v p
      rw [← h, text_program net i v p hp] at this
      exact absurd ht (not_or.mpr (this t))
    · have lt : ∀ (i : Item) (v : Byte) (p : List Byte), i.Wf → i.program = some (v, p) → ∀ x ∈ v :: Base32Spec.encodeRaw p, x.toNat < 32 := by
        intro i v p hi hp x hx
        rcases List.mem_cons.mp hx with e | e
        · rw [e]
          cases i <;> cases hp
          · decide
          · decide
          · have := hi.2.1; omega
        · exact encodeRaw_lt p x e
      rw [text_program net i v p hp, text_program net' i' w q hq] at h
      obtain ⟨e1, e2⟩ := bech32_inj _ _ _ _ (lt i v p hi hp) (lt i' w q hi' hq) h
      obtain ⟨e3, e4⟩ := List.cons.inj e2
      rw [← e3, ← encodeRaw_inj p q e4] at hq
      have e5 : net = net' := by revert e1; cases net <;> cases net' <;> decide
      refine ⟨program_inj i i' hi hi' v p hp hq, ?_⟩
      cases i <;> first | exact e5 | cases hp

end Item

/-- C87, the texts of Bitcoin.  If two calls, for any of the three networks, write the same text, then they were made by the same function
with the same value (and compression flag), for networks that share their texts. -/
theorem C87_texts (nd nd' : Bool) (host host' : Host) (net net' : Network) (i i' : Item) (o o' r r' : List Byte) (n n' : Nat) (hi : i.Wf)
    (hi' : i'.Wf) (ho : 128 ≤ o.length) (ho' : 128 ≤ o'.length) (h : i.write nd host net o = .ok (r, n))
    (h' : i'.write nd' host' net' o' = .ok (r', n')) (same : r.take n = r'.take n') : i = i' ∧ i.Alike net net' := by
  obtain ⟨e1, e2⟩ := Prod.mk.inj (Res.ok.inj ((Item.write_eq nd host net o i hi ho).symm.trans h))
  obtain ⟨e3, e4⟩ := Prod.mk.inj (Res.ok.inj ((Item.write_eq nd' host' net' o' i' hi' ho').symm.trans h'))
  rw [← e1, ← e2, ← e3, ← e4, over_take, over_take] at same
  exact Item.text_inj net net' i i' hi hi' same
