import Verif.Props.UpperAddress
import Verif.Cases.Codec
/-! Applications of the theorems of `Props/LetterCase` and `Props/UpperAddress`. -/
namespace Cases
section
open Address AddressSpec

example := C109_from_hex (cstr "DeadBEEF!" ++ [0]) (cstr "dEADbeef!" ++ [0]) (aa 4) 9 (by decide +kernel)
example : Hex.fromHex (cstr "DeadBEEF!" ++ [0]) 9 (aa 4) = .ok ([0xDE, 0xAD, 0xBE, 0xEF], 4) := by decide +kernel
example := C109_from_base32 true (cstr "MZXW6===" ++ [0]) (cstr "mzXw6===" ++ [0]) (aa 5) 8 (by decide +kernel)
example : Base32.fromBase32 true (cstr "MZXW6===" ++ [0]) 8 (aa 5) = .ok (cstr "foo" ++ aa 2, 3) := by decide +kernel
example := C109_bech32_decode (cstr "BC1QW56K6G7K") (cstr "bc1qw56k6g7k") [0#8] (aa 3) (aa 4) 3 (by decide +kernel) (by decide +kernel)
  (by decide +kernel)
example : Bech32.decode (cstr "BC1QW56K6G7K" ++ [0]) 12 (aa 3) 3 (aa 4) = .ok ⟨3, [0x62, 0x63, 0xAA], 2, [0, 14, 20, 0xAA]⟩ := by
  decide +kernel

/-- A witness address of version 1. -/
theorem pw5_read : ∃ r, addressDecode .little true (List.replicate 128 0#8) (cstr "bc1pw5ysv34t5p" ++ 0#8 :: [])
    (cstr "bc1pw5ysv34t5p").length (aa 12) (aa 12).length Network.main.param = .ok r ∧ r.kind = .witnessUnknown := by
  cases h : addressDecode .little true (List.replicate 128 0#8) (cstr "bc1pw5ysv34t5p" ++ 0#8 :: [])
      (cstr "bc1pw5ysv34t5p").length (aa 12) (aa 12).length Network.main.param with
  | ok r =>
    refine ⟨r, rfl, ?_⟩
    have e : (match addressDecode .little true (List.replicate 128 0#8) (cstr "bc1pw5ysv34t5p" ++ 0#8 :: [])
      (cstr "bc1pw5ysv34t5p").length (aa 12) (aa 12).length Network.main.param with | .ok r => r.kind | _ => .bad) = Kind.witnessUnknown := by
      decide +kernel
    rw [h] at e
    exact e
  | ub => exact absurd h (by decide +kernel)
  | abort => exact absurd h (by decide +kernel)

/-- Its upper-case form is read as the same address. -/
example : ∃ r r', addressDecode .little true (List.replicate 128 0#8) (cstr "bc1pw5ysv34t5p" ++ 0#8 :: [])
      (cstr "bc1pw5ysv34t5p").length (aa 12) (aa 12).length Network.main.param = .ok r ∧
    addressDecode .little true (List.replicate 128 0#8) (cstr "BC1PW5YSV34T5P" ++ 0#8 :: [])
      (cstr "BC1PW5YSV34T5P").length (aa 12) (aa 12).length Network.main.param = .ok r' ∧
    r'.kind = r.kind ∧ r'.outSize = r.outSize ∧ r'.out.take r'.outSize = r.out.take r.outSize := by
  obtain ⟨r, h, hk⟩ := pw5_read
  obtain ⟨r', h'⟩ := C109_upper_address_partial .main .little true _ _ (cstr "BC1PW5YSV34T5P") [] (aa 12) r (by decide +kernel)
    List.length_replicate (by decide +kernel) (by decide +kernel) (by decide +kernel) nofun h (.inr (.inr hk))
  exact ⟨r, r', h, h'⟩

example (r : Decoded) (h : addressDecode .little true (List.replicate 128 0#8) (cstr "bc1pw5ysv34t5p" ++ 0#8 :: [])
    (cstr "bc1pw5ysv34t5p").length (aa 12) (aa 12).length Network.main.param = .ok r) (hk : r.kind = .witnessUnknown) :=
  C109_address_partial .main .little true _ _ (cstr "BC1PW5YSV34T5P") [] (aa 12) r (by decide +kernel)
    List.length_replicate (by decide +kernel) (by decide +kernel) h (.inr (.inr hk))
end
end Cases
