import Verif.Props.Order
/-! Concrete cases for C116. -/
namespace Cases
open OrderSpec

example : ∃ ta tb, Hex.toHex [0x9F#8, 0x01#8] 2 (List.replicate 5 0#8) false = .ok ta ∧ Hex.toHex [0xA0#8] 1 (List.replicate 2 0#8) false = .ok tb ∧
    before (ta.take 4) (tb.take 2) = true :=
  C116_hex [0x9F#8, 0x01#8] [0xA0#8] _ _ false (by decide) (by decide)

example : ∃ ta tb n m, Base58.toBase58 [0x28#8, 0x7F#8] 2 (List.replicate 5 0#8) = .ok (ta, n) ∧ Base58.toBase58 [0x28#8, 0x80#8] 2 (List.replicate 5 0#8) = .ok (tb, m) ∧
    (n = m → before (ta.take n) (tb.take m) = true) :=
  C116_base58_partial [0x28#8, 0x7F#8] [0x28#8, 0x80#8] _ _ rfl (by decide) (by decide) (by decide)
/-- The texts are indeed of the same length. -/
example : Base58.toBase58 [0x28#8, 0x7F#8] 2 (List.replicate 5 0#8) = .ok (cstr "45k" ++ [0#8, 0#8], 3) ∧
    Base58.toBase58 [0x28#8, 0x80#8] 2 (List.replicate 5 0#8) = .ok (cstr "45m" ++ [0#8, 0#8], 3) := by decide +kernel

example : ∃ ta tb n m, Base58Check.toBase58Check .little (List.replicate 20 1#8) 20 [0#8] 1 (List.replicate 40 0#8) = .ok (ta, n) ∧
    Base58Check.toBase58Check .big (List.replicate 20 2#8) 20 [0#8] 1 (List.replicate 40 0#8) = .ok (tb, m) ∧ (n = m → before (ta.take n) (tb.take m) = true) :=
  C116_base58check_partial .little .big (List.replicate 20 1#8) (List.replicate 20 2#8) [0#8] _ _ rfl (by decide) (by decide) (by decide) (by decide)
/-- These addresses have the same length. -/
example : (Base58CheckSpec.encode (0#8 :: List.replicate 20 1#8)).length = (Base58CheckSpec.encode (0#8 :: List.replicate 20 2#8)).length := by decide +kernel

example : before ((List.replicate 12 0#8).take 1) [0x7F#8] = true := by
  have h1 : CompressInteger.encodeVarint (List.replicate 10 9#8) 0#64 (List.replicate 12 0#8) = .ok (List.replicate 12 0#8, 1) := by decide +kernel
  have h2 : CompressInteger.encodeVarint (List.replicate 10 9#8) 127#64 [0#8] = .ok ([0x7F#8], 1) := by decide +kernel
  exact C116_varint_partial 0#64 127#64 _ _ _ _ _ _ 1 rfl rfl h1 h2

example : ∃ s t, s.length = 2 ∧ t.length = 3 ∧
    (∀ tmp buf : List Byte, tmp.length = 10 → 3 ≤ buf.length → CompressInteger.encodeVarint tmp 300#64 buf = .ok (over s buf, 2) ∧
      CompressInteger.encodeVarint tmp 16512#64 buf = .ok (over t buf, 3)) ∧ before t s = true :=
  C116_violated_varint 300#64 (by decide) (by decide)

example : before [0x00#8] [0xF9#8, 0x01#8] = true ∧ ∃ ta tb, Base64.toBase64 [0xF9#8, 0x01#8] 2 (List.replicate 4 0#8) = .ok ta ∧
    Base64.toBase64 [0x00#8] 1 (List.replicate 4 0#8) = .ok tb ∧ before (ta.take 4) (tb.take 4) = true :=
  C116_violated_base64 0xF9#8 0x00#8 [0x01#8] [] _ _ (by decide) (by decide) (by decide) (by decide)

example : before [0x00#8] [0xF9#8, 0x01#8] = true ∧ ∃ ta tb, Base64.toBase64Urlsafe [0xF9#8, 0x01#8] 2 (List.replicate 4 0#8) = .ok ta ∧
    Base64.toBase64Urlsafe [0x00#8] 1 (List.replicate 4 0#8) = .ok tb ∧ before (ta.take 3) (tb.take 2) = true :=
  C116_violated_base64_urlsafe 0xF9#8 0x00#8 [0x01#8] [] _ _ (by decide) (by decide) (by decide) (by decide)

example : before [0x00#8] [0xD9#8, 0x01#8] = true ∧ ∃ ta tb, Base32.toBase32 [0xD9#8, 0x01#8] 2 (List.replicate 8 0#8) = .ok ta ∧
    Base32.toBase32 [0x00#8] 1 (List.replicate 8 0#8) = .ok tb ∧ before (ta.take 8) (tb.take 8) = true :=
  C116_violated_base32 0xD9#8 0x00#8 [0x01#8] [] _ _ (by decide) (by decide) (by decide) (by decide)

example : before [5#8, 0#8, 7#8] [5#8, 1#8] = true ∧ ∃ ta tb, Bech32.encode (cstr "bc") 2 [5#8, 0#8, 7#8] 3 (List.replicate 20 0#8) = .ok (over ta (List.replicate 20 0#8)) ∧
    Bech32.encode (cstr "bc") 2 [5#8, 1#8] 2 (List.replicate 11 0#8) = .ok (over tb (List.replicate 11 0#8)) ∧ before tb ta = true :=
  C116_violated_bech32 (cstr "bc") [5#8] [7#8] [] _ _ (by decide) (by decide) (by decide) (by decide) (by decide)

end Cases
