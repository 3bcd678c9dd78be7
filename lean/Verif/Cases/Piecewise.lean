import Verif.Props.Piecewise
import Verif.Cases.Keys
/-! Every theorem with hypotheses of `Props/Piecewise`, applied to concrete arguments that meet them. -/
namespace Cases

example := C88_to_hex [0x12] [0x34, 0xAB] [9, 9] [7, 7, 7, 7, 7] (cstr "12") (cstr "34ab" ++ [7]) false (by decide) (by decide)
  (by decide +kernel) (by decide +kernel)
example := C88_to_base64 (cstr "foo") (cstr "b") (List.replicate 4 0) (List.replicate 5 1) (cstr "Zm9v") (cstr "Yg==" ++ [1])
  (by decide) (by decide) (by decide) (by decide +kernel) (by decide +kernel)
example := C88_to_base64_urlsafe (cstr "foo") [0xfb, 0xff] (List.replicate 4 0) (List.replicate 4 1) (cstr "Zm9v") (cstr "-_8" ++ [1])
  (by decide) (by decide) (by decide) (by decide +kernel) (by decide +kernel)
example := C88_to_base32 (cstr "fooba") (cstr "f") (List.replicate 8 0) (List.replicate 9 1) (cstr "mzxw6ytb") (cstr "my======" ++ [1])
  (by decide) (by decide) (by decide) (by decide +kernel) (by decide +kernel)
example := C88_to_base32_raw [0xFF, 0xFF, 0xFF, 0xFF, 0xFF] [0xFF] (List.replicate 8 0) [1, 1, 1] (List.replicate 8 31) [31, 28, 1] 8 2
  (by decide) (by decide) (by decide) (by decide +kernel) (by decide +kernel)
example := C88_from_hex (cstr "12aB") (cstr "340x77") [9, 9] [7, 7, 7] [0x12, 0xAB] [0x34, 7, 7] 2 1 (by decide) (by decide)
  (by decide +kernel) (by decide) (by decide +kernel)
example := C88_from_base64_urlsafe (cstr "Zm9v") (cstr "-_8") [0, 0, 0] [0, 0, 7] (cstr "foo") [0xfb, 0xff, 7] 3 2 (by decide) (by decide)
  (by decide) (by decide +kernel) (by decide) (by decide +kernel)
example := C88_from_base64 (cstr "Zm9v") (cstr "Yg==") [0, 0, 0] [0, 7] (cstr "foo") (cstr "b" ++ [7]) 3 1 1 (by decide) (by decide)
  (by decide) (by decide) (by decide) (by decide +kernel) (by decide) (by decide +kernel)

end Cases
