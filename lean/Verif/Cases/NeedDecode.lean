import Verif.Props.NeedDecode
import Verif.Cases.Texts
/-! Every theorem with hypotheses of `Props/NeedDecode`, applied to concrete arguments that meet them, with an object that fits and with one that is
a byte short. -/
namespace Cases

/-- `fingera_from_hex_length(6)` is 3, but the text breaks off after two bytes. -/
example : Hex.fromHex (cstr "12abx4") 6 (aa 2) = .ok ([0x12, 0xAB], 2) ∧ Hex.fromHex (cstr "12abx4") 6 (aa 1) = .ub := by decide +kernel
example := C95_from_hex (cstr "12abx4") [] (aa 2)
example : Base64.fromBase64 (cstr "Zm9vYg==") 8 (aa 4) = .ok (cstr "foob", 4) ∧ Base64.fromBase64 (cstr "Zm9vYg==") 8 (aa 3) = .ub := by
  decide +kernel
example := C95_from_base64 (cstr "Zm9vYg==") [] (aa 3)
example := C95_from_base32 true (cstr "mzxw6yq=") [] (by decide) (by decide)
example : Base32.fromBase32 true (cstr "mzxw6yq=" ++ [0]) 8 (aa 4) = .ok (cstr "foob", 4) ∧
    Base32.fromBase32 true (cstr "mzxw6yq=" ++ [0]) 8 (aa 3) = .ub := by decide +kernel
/-- Base58Check with four bytes of payload needs eight. -/
example := fun W => C95_from_base58 .little true (cstr "13DV5niCGP") [] (aa 8) W (by decide)
  (by rw [Base58Spec.TooLong]; decide +kernel) (fun h => not_negative (by decide) h.2)
example : ∃ W, Base58Spec.decode? (cstr "13DV5niCGP") = some W ∧ W.take 4 = [0, 1, 2, 3] ∧ W.length = 8 :=
  ⟨[0, 1, 2, 3] ++ (Sha2Spec.SHA256 (Sha2Spec.SHA256 [0, 1, 2, 3])).take 4, by decide +kernel, by decide +kernel, by decide +kernel⟩
example : Base58Check.fromBase58Check .little true (cstr "13DV5niCGP" ++ [0]) 10 (aa 7) = .ub := by decide +kernel

open Bech32 Bech32Spec
instance (s : List Byte) : Decidable ((∀ c ∈ s, 33 ≤ c.toNat ∧ c.toNat ≤ 126) ∧ ¬ ((∃ c ∈ s, isUpper c) ∧ ∃ c ∈ s, isLower c)) :=
  inferInstanceAs (Decidable (_ ∧ _))
example := C96_bech32_bad_character (cstr "A12uEL5L") [0] (aa 2) [] 2 (by decide +kernel)
/-- No separator. -/
example := C96_bech32_bad_shape (cstr "pzry9x0s0muk") [] (aa 2) (aa 4) 2 (by decide +kernel) (by decide +kernel)
  (.inr fun a d h => by
    have : 49#8 ∉ cstr "pzry9x0s0muk" := by decide +kernel
    rw [h] at this
    simp at this)
/-- The data characters `qw5` are all legal; the text is accepted when three bytes fit. -/
example := C96_bech32_verdict (cstr "bc1qw56k6g7k") [] (aa 2) (aa 3) (cstr "bc") (cstr "qw5") (cstr "6k6g7k") (vals (cstr "qw5"))
  (vals (cstr "6k6g7k")) 2 (by decide +kernel) (by decide +kernel) (by decide +kernel) (by decide +kernel) (by decide +kernel) (by decide)
  (by decide +kernel) (by decide) (leading_vals _) (leading_vals _)
example : Bech32.decode (cstr "bc1qw56k6g7k" ++ [0]) 12 (aa 2) 2 (aa 2) = .ub := by decide +kernel
/-- One data character is not in the alphabet: two values are written, and two bytes are enough. -/
example : Bech32.decode (cstr "bc1qwb6k6g7k" ++ [0]) 12 (aa 2) 2 (aa 2) = .ok ⟨-4, cstr "bc", 2, [0, 14]⟩ := by decide +kernel
end Cases
