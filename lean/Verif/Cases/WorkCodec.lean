import Verif.Props.WorkCodec
import Verif.Cases.LeakageRead
import Verif.Cases.Address

/-! The theorems of `Verif.Props.WorkCodec` applied to concrete data. -/
namespace Cases
open Endian AddressSpec WorkSpec

example : ∃ t, Leakage.fromBase64 ⟨"str", 0, cstr "Zm9v*m9v="⟩ 9 (aa 7) = .ok (over [0x66#8, 0x6f#8, 0x6f#8] (aa 7), 3) t ∧ work t ≤ 57 :=
  (C102_base64 (cstr "foob") (aa 8) (cstr "Zm9v*m9v=") (aa 7) 9 6 (by decide +kernel) (by decide +kernel) (by decide +kernel) (by decide +kernel)).2

/-- What is seen of writing "f", and how much that is. -/
example : Leakage.toBase64 ⟨"buf", 0, cstr "f"⟩ 1 (aa 4) = .ok (cstr "Zg==")
    [.branch false, .branch false, .branch true, .load "buf" 0 1, .load "BASE64_STANDARD_ENCODE" 25 1, .store "str" 0 1, .branch false,
      .load "BASE64_STANDARD_ENCODE" 32 1, .store "str" 1 1, .branch true, .store "str" 2 1, .store "str" 3 1] := by decide +kernel

example : ∃ t, Leakage.toBase64Urlsafe ⟨"buf", 0, [0xfb#8, 0xff#8]⟩ 2 (aa 3) = .ok (over (cstr "-_8") (aa 3)) t ∧ work t ≤ 22 :=
  (C102_base64_urlsafe [0xfb#8, 0xff#8] (aa 3) (cstr "-_8") (aa 2) 3 (by decide +kernel) (by decide +kernel) (by decide +kernel)).1

example : ∃ t, Leakage.toBase32 ⟨"buf", 0, cstr "fooba"⟩ 5 (aa 9) = .ok (over (Base32Spec.encode (cstr "fooba")) (aa 9)) t ∧ work t ≤ 58 :=
  (C102_to_base32 (cstr "fooba") (aa 9) (aa 8) (by decide +kernel) (by decide +kernel)).1

example : ∃ t, Leakage.fromBase32 true ⟨"str", 0, cstr "mzxw6!==" ++ [0#8, 1#8]⟩ 8 (aa 5) = .ok (aa 5, 0) t ∧ work t ≤ 85 :=
  C102_from_base32 true (cstr "mzxw6!==") [1#8] (aa 5) _ (by decide +kernel)

example : ∃ r t, CompressInteger.encodeVarint (aa 10) 300#64 (aa 10) = .ok r ∧ Leakage.encodeVarint (aa 10) 300#64 (aa 10) = .ok r t ∧
    work t ≤ 63 :=
  (C102_varint (aa 10) (aa 10) 300#64 (by decide +kernel) (by decide +kernel) [0x81#8, 0x2C#8] 2 (by decide)).1

example : ∃ t, Leakage.decodeZigzag ⟨"buf", 0, [0x81#8, 0x2D#8]⟩ 10 7#64 = .ok (BitVec.ofInt 64 (-150), 2) t ∧ work t ≤ 34 :=
  (C102_zigzag (aa 10) (aa 10) 1#64 7#64 (by decide +kernel) [0x81#8, 0x2D#8] 10).2 _ (by decide +kernel)

example : ∃ r t, Bech32.decode (cstr "bc1qw56k6g7k" ++ 0#8 :: []) 12 (aa 3) 3 (aa 4) = .ok r ∧
    Leakage.bech32Decode ⟨"str", 0, cstr "bc1qw56k6g7k" ++ 0#8 :: []⟩ 12 "hrp" (aa 3) 3 "b32" (aa 4) = .ok r t ∧ work t ≤ 29 * 12 + 92 :=
  C102_bech32_decode (cstr "bc1qw56k6g7k") [] (aa 3) (aa 4) 3 (by decide +kernel) (by decide +kernel) (by decide +kernel)

example : ∃ t, Leakage.bech32Encode ⟨"hrp", 0, cstr "bc"⟩ 2 ⟨"b32", 0, [0#8, 14#8, 20#8]⟩ 3 (aa 13) = .ok (cstr "bc1qw56k6g7k" ++ aa 1) t ∧
    work t ≤ 14 * 2 + 11 * 3 + 78 :=
  C102_bech32_encode (cstr "bc") [0#8, 14#8, 20#8] (aa 13) _ (by decide +kernel)

example : ∃ r t, Address.toAddressPubkey .little h20 20 (aa 40) 40 Network.main.param = .ok r ∧
    Leakage.toAddressPubkey .little ⟨"key_id", 0, h20⟩ 20 (aa 40) 40 Network.main.param = .ok r t ∧ work t ≤ 7000 := by
  obtain ⟨r, t, h1, h2, h3⟩ := (C102_to_address_base58 .main .little h20 (aa 40) 40 (by decide +kernel) (by decide +kernel)).1
  rw [show h20.length = 20 by decide +kernel] at h1 h2 h3
  exact ⟨r, t, h1, h2, by omega⟩

example : ∃ r t, Leakage.toAddressWitnessV0Keyhash false ⟨"key_hash", 0, h20⟩ 20 (aa 64) 64 Network.main.param = .ok r t ∧ work t ≤ 1200 := by
  have h := (C41_witness_v0_encoders .main false h20 (aa 64) 64 (by decide +kernel)).1
  rw [if_pos (by decide +kernel), show h20.length = 20 by decide +kernel] at h
  obtain ⟨t, h1, h2⟩ := (C102_to_address_witness .main false h20 (aa 64) 20 64 _).1 h
  exact ⟨_, t, h1, h2⟩

/-- A text that is no address is rejected; how much is done for it is bounded all the same. -/
example : ∃ t, Leakage.addressDecode .little true (aa 128) ⟨"str", 0, cstr "0OIl" ++ 0#8 :: []⟩ 4 (aa 64) 64 Network.main.param =
    .ok ⟨.bad, aa 64, 64⟩ t ∧ work t ≤ 4 * 4 ^ 2 + 72 * 4 + 2600 :=
  C102_address_decode .main .little true (aa 128) (cstr "0OIl") [] (aa 64) 64 (by decide +kernel) _ (by decide +kernel)
end Cases
