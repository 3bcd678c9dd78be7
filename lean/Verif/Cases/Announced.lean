import Verif.Props.Announced
import Verif.Cases.Keys
/-! Every theorem with hypotheses of `Props/Announced`, applied to concrete arguments that meet them. -/
namespace Cases
open Base58Spec

example : Hex.fromHex (cstr "12abcd") 4 (aa 2) = .ok ([0x12, 0xAB], 2) := by decide +kernel

/-- `"2222"` announced as three characters is decoded as a whole, announced as one it fails an assertion. -/
example := C97_violated_base58 true (cstr "2222") [] (aa 4) [3, 7, 0x87] 3 (by decide) (by decide) (by decide +kernel) (by decide +kernel)
  (by decide)
example : Base58.fromBase58 true (cstr "2222" ++ [0]) 3 (aa 4) = .ok ([3, 7, 0x87, 0xAA], 3) ∧
    Base58.fromBase58 true (cstr "2222" ++ [0]) 1 (aa 4) = .abort ∧
    Base58.fromBase58 true (cstr "222" ++ [0]) 3 (aa 4) = .ok ([0xD, 0x5F, 0xAA, 0xAA], 2) := by decide +kernel
example := C97_base58_partial true (cstr "1222") (cstr " \n") (cstr "xyz") (aa 4) (by decide +kernel) (by decide) (by decide) (by decide)
example := C97_violated_base58_refused true (cstr "1222") (cstr "00") [] (aa 4) (chr '0') (by decide +kernel) (by decide +kernel) (by decide)
  (by decide) (by decide)
example : Base58.fromBase58 true (cstr "1222" ++ cstr "000" ++ [0]) 4 (aa 4) = .ok (aa 4, 0) := by decide +kernel
example := C97_violated_base58_unterminated .little true (cstr "13DV5niCGP") (aa 8)
  ([0, 1, 2, 3] ++ (Sha2Spec.SHA256 (Sha2Spec.SHA256 [0, 1, 2, 3])).take 4) (by decide) (by rw [TooLong]; decide +kernel)
  (fun h => not_negative (by decide) h.2) (by decide +kernel) (by decide +kernel)

/-- Three digits announced, four read: the Base58Check decoder, WIF, xprv and xpub import. -/
example := (C97_violated_base58check true .little true (cstr "2222") [] (aa 4) [3, 7, 0x87] 3 (by decide) (by decide) (by decide +kernel)
  (by decide +kernel) (by decide) (by decide) (aa 32) 0 m1 p1 mainnet (by decide)).1 (by decide +kernel)
/-- One announced: the assertion fails. -/
example := (C97_violated_base58check true .little true (cstr "2222") [] (aa 4) [3, 7, 0x87] 1 (by decide) (by decide) (by decide +kernel)
  (by decide +kernel) (by decide) (by decide) (aa 32) 0 m1 p1 mainnet (by decide)).2 (by decide +kernel)

example := C97_base32_partial true (cstr "mzxw") (cstr "6yq") [1] [2] (aa 4) (by decide)
/-- `"mz"` is announced, `"mzxw6yq"` is decoded. -/
example := C97_violated_base32 true (cstr "mzxw6yq") [] [] (aa 4) 2 (by decide)
example : Base32.fromBase32 true (cstr "mzxw6yq=") 2 (aa 4) = .ok (cstr "foob", 4) ∧
    Base32.fromBase32 true (cstr "mz" ++ [0]) 2 (aa 4) = .ok (cstr "f" ++ aa 3, 1) := by decide +kernel
example := C97_violated_base32_unterminated true (cstr "mzxw6yq") (aa 4) 7 (by decide)

open Bech32 Bech32Spec
example := C97_bech32_partial (cstr "bc1qw56k6g7k") (cstr " and more") [] [] (aa 2) (aa 3) 2 (by decide) (by decide)
/-- A valid text is refused because of what follows it. -/
example := C97_violated_bech32 (cstr "bc1qw56k6g7k") (cstr " ") (cstr "2") [] (aa 2) (aa 3) 2 (by decide +kernel) (by decide +kernel) (by decide)
example : Bech32.decode (cstr "bc1qw56k6g7k 12" ++ [0]) 12 (aa 2) 2 (aa 3) = .ok ⟨-2, aa 2, 2, aa 3⟩ ∧
    Bech32.decode (cstr "bc1qw56k6g7k 2" ++ [0]) 12 (aa 2) 2 (aa 3) = .ok ⟨3, cstr "bc", 2, [0, 14, 20]⟩ := by decide +kernel
example := C97_violated_bech32_unterminated (cstr "bc1qw56k6g7k") [] (aa 2) (aa 3) 2 (by decide +kernel) (by decide +kernel) (by decide)
end Cases
