import Verif.Props.Hex
import Verif.Props.Base64
import Verif.Props.Base32
import Verif.Props.Base32Total
import Verif.Props.CompressInteger
/-!
Every theorem of `Props/Hex`, `Props/Base64`, `Props/Base32`, `Props/Base32Total` and `Props/CompressInteger` that has hypotheses, applied
to concrete arguments that meet them (in the order of those files).  `aa n` is an array of `n` bytes that were never set.
-/
namespace Cases

def aa (n : Nat) : List Byte := List.replicate n 0xAA#8

section
open Hex

/-! ### Hex -/
example := C01_to_hex_writes_spec [0xDE#8, 0xAD#8, 0x07#8] (aa 9) true (by decide)
example := C01_hex_roundtrip [0xDE#8, 0xAD#8, 0x07#8] (aa 6) (aa 5) false (by decide) (by decide)
example := C01_hex_case_insensitive (cstr "DeAd0z") (aa 3) 6 (by decide) (by decide)
example := C02_from_hex_any (cstr "dead0z12") (aa 4) 8 (by decide) (by decide)
example := C02_from_hex_longest (cstr "dead0z12") (aa 4) 8 (by decide) (by decide) [0xDE#8, 0xAD#8, 0xAA#8, 0xAA#8] 2 (by decide +kernel)
example := C03_hex_dump (aa 1024) (cstr "hello world") 11 true List.length_replicate (by decide)
end

section
open Base64

/-! ### Base64 -/
example := C04_to_base64_rfc4648 (cstr "foob") (aa 9) (by decide)
example := C05_to_base64_urlsafe_rfc4648 (cstr "foob") (aa 7) (by decide)
example := C05_urlsafe_alphabet [0xfb#8, 0xff#8] (chr '_') (by decide +kernel)
example := C06_base64_roundtrip (cstr "foob") (aa 8) (aa 6) (by decide) (by decide)
example := C06_base64_urlsafe_roundtrip (cstr "foob") (aa 6) (aa 6) (by decide) (by decide)
example := C07_from_base64_safe (cstr "Zm9v*m9v=") (aa 6) 9 6 (by decide) (by decide +kernel) (by decide)
example := C07_from_base64_length_defined (cstr "Zm9v*m9v=") 9 (by decide)
example := C07_from_base64_urlsafe_safe (cstr "Zm9v-_!") (aa 5) 7 (by decide) (by decide)
example := C08_base64_decode_content (cstr "Zm9v*m9v=") (aa 6) 9 (by decide) 6 (by decide +kernel) (by decide)
example := C08_base64_urlsafe_decode_content (cstr "Zm9v-_!") (aa 5) 7 (by decide) (by decide)
example := C08_base64_accepts_iff (cstr "Zm9vYg==") (aa 4) 8 4 (by decide) (by decide +kernel) (by decide)
example := C08_base64_urlsafe_accepts_iff (cstr "Zm9v-_!") (aa 5) 7 (by decide) (by decide)
end

section
open Base32 Base32Spec

/-! ### Base32 -/
example := C09_to_base32_rfc4648 (cstr "foob") (aa 9) (by decide)
example := C09_to_base32_raw (cstr "foob") (aa 9) (by decide)
example := C10_base32_roundtrip true (cstr "foob") (aa 8) (cstr "xyz") (aa 5) (by decide) (by decide)
example := C10_base32_case_insensitive true (cstr "MzXw6yQ=") (cstr "xyz") (aa 4) (by decide) (by decide) 4 (by decide +kernel) (by decide)
example := C11_raw_roundtrip_partial true [0xFF#8, 0x00#8, 0xFF#8] (aa 5) [31#8, 28#8, 0#8, 15#8, 30#8] [31#8, 28#8] [7#8] [15#8, 30#8, 7#8]
  (aa 4) 5 (by decide) (by decide +kernel) (by decide) (by decide) (by decide)
example := C12_from_base32_partial true (cstr "mzxw6ytb#mzxw6yt") (cstr "xyz") (aa 10) 10 (by decide) (fun _ => by decide)
  (by decide +kernel) (by decide)
example := C12_undefined_iff_partial true [0xE9#8, 0xE9#8] [7#8] (aa 1) 1 (by decide) (by decide +kernel) (by decide)
example := C12_violated_negative (cstr "my") [7#8] (aa 2) 0xE9#8 0xC3#8 2 (by decide) (by decide) (by decide) (by decide)
  (by decide +kernel) (by decide)
example := C12_from_base32_defined_partial true (cstr "mzxw6ytb#mzxw6yt") [] (aa 6) ([0x66#8, 0x6f#8, 0x6f#8, 0x62#8, 0x61#8] ++ aa 1) 10 5
  (by decide) (by decide +kernel) (by decide +kernel)
example := C12_stops_at_illegal_group true (cstr "mzxw6ytb#mzxw6yt") [] (aa 6) (cstr "mzxw6ytb#mzxw6yt")
  ([0x66#8, 0x6f#8, 0x6f#8, 0x62#8, 0x61#8] ++ aa 1) 1 5 (chr '#') (by decide) (by decide +kernel) (by decide) (by decide +kernel)
  (by decide +kernel) (by decide +kernel) (by decide +kernel)
example := C11_violated_reads_beyond true [0xFF#8, 0x71#8] (aa 2) (by decide +kernel)
example := C11_violated_writes_beyond true [0xFF#8, 0x71#8] [1#8, 2#8, 3#8, 4#8, 5#8, 6#8, 7#8, 8#8] [] (aa 2) (by decide +kernel)
  (by decide) (by decide) (by decide)
/-- Both sides of `C11_raw_roundtrip_iff_partial` occur. -/
example : 0#8 ∈ encodeRaw [0xFF#8, 0x00#8, 0xFF#8] ∧ 0#8 ∉ encodeRaw [0xFF#8, 0x71#8] := by decide +kernel
end

section
open CompressInteger VarintSpec

/-! ### Integers -/
example := C21_encode_varint 0x12345#64
example := C21_length_monotone (aa 10) (aa 10) (aa 10) (aa 11) ([0x7F#8] ++ aa 9) ([0x80#8, 0x00#8] ++ aa 9) 127#64 128#64 1 2 (by decide)
  (by decide) (by decide +kernel) (by decide +kernel) (by decide)
example := C20_varint_roundtrip (aa 10) (aa 10) ([0x80#8, 0x00#8] ++ aa 8) (cstr "rest") 128#64 2 6 (by decide)
  (by decide +kernel) (by decide)
example := C20_varint_stream (aa 10) (aa 10) (cstr "rest") [128#64, 0#64, 0x12345678#64] (by decide) (by decide)
example := C22_decode_varint_any [0x80#8, 0xFF#8, 0x05#8, 0x11#8] 4 (by decide)
example := C23_varint_unique_partial (aa 10) [0x80#8, 0xFE#8, 0xFE#8, 0xFE#8, 0xFE#8, 0xFE#8, 0xFE#8, 0xFE#8, 0xFE#8, 0x7F#8] (aa 10) 10 10
  0xFFFFFFFFFFFFFFFF#64 (by decide) (by decide) (by decide) (by decide +kernel) (by decide)
example := C23_varint_unique_upto_nine (aa 10) [0x80#8, 0x00#8, 0x55#8] (aa 10) 3 2 128#64 (by decide) (by decide) (by decide)
  (by decide +kernel) (by decide) (by decide)
example := C24_encode_zigzag_exact (aa 10) (aa 10) (-12345#64)
example := C24_zigzag_roundtrip_partial (-12345#64) (by decide)
example := C103_length_monotone (aa 10) (aa 10) (aa 2) (aa 10) [0x80#8, 0x01#8] ([0x80#8, 0x00#8] ++ aa 8) (-64#64) 64#64 2 2 (by decide)
  (by decide) (by decide +kernel) (by decide +kernel) (by decide)
example := C103_violated_two_zeros (aa 10) (aa 1) (by decide) (by decide) 7#64
example := C103_never_int64_min [0x80#8, 0x01#8] 2 7#64 (-64#64) 2 (by decide +kernel) (by decide)
example := C103_zigzag_unique_partial (aa 10) [0x80#8, 0x01#8] (aa 2) 2 2 7#64 (-64#64) (by decide) (by decide) (by decide)
  (by decide +kernel) (by decide)
example := C24_zigzag_failure_keeps_out [0xFF#8, 0xFF#8] 2 7#64 7#64 (by decide +kernel)
end

end Cases
