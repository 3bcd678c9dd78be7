import Verif.Props.Base58
import Verif.Props.Base58Total
import Verif.Props.Bech32
import Verif.Props.Bech32Errors
import Verif.Cases.Codec
/-!
Every theorem of `Props/Base58`, `Props/Base58Total`, `Props/Bech32` and `Props/Bech32Errors` that has hypotheses, applied to concrete
arguments that meet them.
-/
namespace Cases

section
open Base58 Base58Check

theorem not_negative {s : List Byte} (h : ∀ b ∈ s, b.toNat < 128) : ¬ Base58Spec.MeetsNegative s := by
  rintro ⟨a, c, b, rfl, -, h1, -⟩
  exact absurd (h c (by simp)) (Nat.not_lt.mpr h1.1)

/-! ### Base58 -/
example := C13_to_base58_canonical [0#8, 0#8, 1#8, 2#8] (aa 7) (by decide) (by decide +kernel)
example := C16_from_base58_any true (cstr " 115T ") (cstr "xyz") (aa 4) (by decide) (fun _ => by decide) (by decide)
  (fun W h => by
    rw [show Base58Spec.decode? (cstr " 115T ") = some [0#8, 0#8, 1#8, 2#8] from by decide +kernel] at h
    cases h; decide)
example := C16_reencode (cstr " 115T ") [0#8, 0#8, 1#8, 2#8] (by decide +kernel)
example := C17_from_base58_fits_partial true (cstr " 115T ") [] (aa 6) (by decide) (fun _ => by decide) (by decide) (by decide +kernel)
  (by decide +kernel)
example := C17_from_base58_fits_strlen true (cstr "111111115T") [] (aa 11) (by decide) (fun _ => by decide) (by decide) (by decide)
example := (C13_to_base58_any [0#8, 0#8, 1#8, 2#8] (aa 4)).1 (by decide +kernel) (by decide +kernel)
example := C14_to_base58_safe_partial [0#8, 0#8, 1#8, 2#8] (aa 7) (by decide +kernel) (by decide)
example := fun str => C14_violated_huge (List.replicate 1556147571 1#8) str (by
  rw [significant, List.dropWhile_replicate, if_neg (by decide), List.length_replicate]; decide)
example := C15_base58_roundtrip_partial true [0#8, 0#8, 1#8, 2#8] (aa 7) (cstr "xyz") (aa 4) (by decide +kernel) (by decide +kernel)
  (by decide +kernel) (by decide) (by decide)
example := C15_base58_roundtrip_upto_2MB_partial true [0#8, 0#8, 1#8, 2#8] (aa 7) (cstr "xyz") (aa 4) (by decide) (by decide) (by decide)
example := fun post out => C15_violated_long true (List.replicate 2200000 1#8) (aa 4000000) post out
  (digits58_long _ (by rw [significant, List.dropWhile_replicate, if_neg (by decide), List.length_replicate]))
  (by rw [significant, List.dropWhile_replicate, if_neg (by decide), List.length_replicate]; decide)
  (by rw [aa, List.length_replicate, List.length_replicate]; decide)
example := (C16_from_base58_total true (cstr " 115T ") [] (aa 3) (by decide)).2 (by rw [Base58Spec.TooLong]; decide +kernel)
  (fun h => not_negative (by decide) h.2) |>.2 [0#8, 0#8, 1#8, 2#8] (by decide +kernel) |>.2 (by decide)
example := (C16_from_base58_total true (cstr "2x" ++ [0xC3#8, 0xA9#8]) [] (aa 4) (by decide)).1
  (.inr ⟨rfl, cstr "2x", 0xC3#8, [0xA9#8], rfl, by decide, by decide, by decide +kernel⟩)
example := C16_from_base58_sound true (cstr " 115T ") (cstr "xyz") (aa 5) [0#8, 0#8, 1#8, 2#8, 0xAA#8] 4 (by decide) (by decide +kernel) (by decide)
example := C17_from_base58_undefined_iff_partial true (cstr "1111111111") [] (aa 9) (by decide) (by decide)
example := C18_base58check_roundtrip_partial .little true [1#8, 2#8, 3#8] [0#8] (aa 13) (cstr "xyz") (aa 9)
  (by rw [Base58Spec.TooLong]; decide +kernel) (by decide +kernel) (by decide) (by decide) (by decide)
example := C18_base58check_roundtrip_upto_1MB_partial .little true [1#8, 2#8, 3#8] [0#8] (aa 13) (cstr "xyz") (aa 9) (by decide) (by decide)
  (by decide)
theorem longSignificant : significant ([] ++ List.replicate 2200000 1#8 ++ Base58CheckSpec.checksum ([] ++ List.replicate 2200000 1#8)) = 2200004 := by
  generalize hc : Base58CheckSpec.checksum ([] ++ List.replicate 2200000 1#8) = c
  have h4 : c.length = 4 := by rw [← hc]; exact checksum_length _
  have hd : ([] ++ List.replicate 2200000 1#8 ++ c).dropWhile (· = 0#8) = List.replicate 2200000 1#8 ++ c := by
    rw [List.nil_append, List.replicate_succ, List.cons_append, List.dropWhile_cons_of_neg (by decide)]
  rw [significant, hd, List.length_append, List.length_replicate, h4]
example := fun post out => C18_violated_long .little true (List.replicate 2200000 1#8) [] (aa 4000000) post out
  (by rw [longSignificant]; decide) (by rw [longSignificant]; decide) (by rw [List.nil_append, List.length_replicate]; decide)
  (by rw [aa, List.length_replicate, List.length_replicate]; decide)
example := (C19_from_base58check_total .little true (cstr "2x" ++ [0xC3#8, 0xA9#8]) [] (aa 4) (by decide)).1
  (.inr ⟨rfl, cstr "2x", 0xC3#8, [0xA9#8], rfl, by decide, by decide, by decide +kernel⟩)
example := C19_base58check_sound .little true (cstr " 13DV5niCGP") (cstr "xyz") (aa 9) ([0#8, 1#8, 2#8, 3#8, 0xF7#8, 0xA3#8, 0x55#8, 0xC0#8, 0xAA#8]) 4
  (by decide) (by decide +kernel) (by decide)
end

section
open Bech32
open Bech32Spec (Valid lower char isUpper isLower polymod hrpExpand differences)

/-! ### Bech32 -/
example := C34_bech32_roundtrip (cstr "bc") [0#8, 14#8, 20#8] (aa 15) (cstr "xyz") (aa 5) (aa 4) 3 (by decide) (by decide) (by decide)
  (by decide) (by decide) (by decide) (by decide) (by decide) (by decide)
example := C35_bech32_sound (cstr "BC1QW56K6G7K") [7#8, 0#8] (aa 3) (aa 4) 3 ⟨3, [0x62#8, 0x63#8, 0xAA#8], 2, [0#8, 14#8, 20#8, 0xAA#8]⟩
  (by decide) (by decide) (by decide) (by decide +kernel) (by decide)
theorem bcValid : Valid (cstr "BC1QW56K6G7K") (cstr "bc") [0#8, 14#8, 20#8] where
  length := by decide
  range := by decide
  case := by decide
  hrp_ne := by decide
  parts := ⟨[26#8, 22#8, 26#8, 8#8, 30#8, 22#8], by decide, by decide, by decide +kernel, by decide +kernel⟩
example := C35_bech32_complete (cstr "BC1QW56K6G7K") (cstr "bc") [0#8, 14#8, 20#8] (cstr "xyz") (aa 3) (aa 4) 3 bcValid (by decide) (by decide) (by decide)
example := C37_bech32_decode_safe (cstr "BC1qW56K6G7K") [7#8, 0#8] (aa 3) (aa 4) 2 (by decide) (by decide) (by decide)
example := C36_burst_detected (cstr "bc1q") (cstr "w5") (cstr "5w") (cstr "6k6g7k") [0#8] [1#8, 0#8] (aa 3) (aa 3) (aa 4) (aa 4) 3 3
  ⟨3, [0x62#8, 0x63#8, 0xAA#8], 2, [0#8, 14#8, 20#8, 0xAA#8]⟩ ⟨-5, [0x62#8, 0x63#8, 0xAA#8], 2, [0#8, 20#8, 14#8, 0xAA#8]⟩
  (by decide) (by decide) (by decide) (by decide) (by decide) (by decide) (by decide) (by decide) (by decide) (by decide +kernel)
  (by decide +kernel) (by decide) (by decide)
example := C70_four_errors_detected (cstr "BC1QW56K6G7K") (cstr "bc1pw5qk6q7q") [0#8] [1#8, 0#8] (aa 3) (aa 3) (aa 4) (aa 4) 3 3
  ⟨3, [0x62#8, 0x63#8, 0xAA#8], 2, [0#8, 14#8, 20#8, 0xAA#8]⟩ ⟨-5, [0x62#8, 0x63#8, 0xAA#8], 2, [1#8, 14#8, 20#8, 0xAA#8]⟩
  (by decide) (by decide) (by decide) (by decide) (by decide) (by decide) (by decide) (by decide) (by decide) (by decide +kernel)
  (by decide +kernel) (by decide) (by decide)
end

end Cases
