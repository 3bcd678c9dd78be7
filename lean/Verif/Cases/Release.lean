import Verif.Props.Release
import Verif.Cases.Keys
import Verif.Cases.Machine
/-! Every theorem with hypotheses of `Props/Release`, applied to concrete arguments that meet them. -/
namespace Cases
open Base58Spec ReleaseSpec

example := (C98_base58_readers .little true (aa 128) (cstr "2222" ++ [0]) 3 (aa 4) 4 0 kb pb mainnet).1 (by decide +kernel)
example := (C98_base58_readers .little true (aa 128) (cstr "2222" ++ [0]) 3 (aa 4) 4 0 kb pb mainnet).2.1 (by decide +kernel)
example := C98_announced_texts .little true (aa 128) (cstr " 13DV5niCGP") [] (aa 8) 8 0 kb pb mainnet (by decide) (by decide)

/-- `"2222"` is the number `0x030787`; announced as one character it gets a work area of one byte. -/
example := C98_violated_base58 true (cstr "2222") [] (aa 4) [3, 7, 0x87] 1 (by decide) (by decide) (by decide +kernel) (by decide +kernel)
  (by decide) (by decide)
example : Release.fromBase58 true true (cstr "2222" ++ [0]) 1 (aa 4) = .ok ([0x87, 0xAA, 0xAA, 0xAA], 1) ∧
    Release.fromBase58 false true (cstr "2222" ++ [0]) 1 (aa 4) = .abort ∧
    Release.fromBase58 true true (cstr "2222" ++ [0]) 4 (aa 4) = .ok ([3, 7, 0x87, 0xAA], 3) := by decide +kernel

/-- A text of one digit more than the payload needs, with a byte in front that the work area has no room for. -/
example := C98_violated_base58check .little true 7#8 0x80#8 (cstr "abcdef") [1, 2] (cstr "xyz") (aa 12) 14 (by decide) (by decide) (by decide)
  (by decide) (by decide)
example := (C98_violated_keys .little true 7#8 0x80#8 (one32 ++ [1#8]) [1, 2] (cstr "xyz") (aa 32) 51 1 kb pb mainnet (by decide) (by decide)
  (by decide) (by decide +kernel) (by decide)).1 (by decide +kernel)
example := (C98_violated_keys .little true 7#8 4#8 (aa 77) [] (cstr "xyz") (aa 32) 111 1 kb pb mainnet (by decide) (by decide)
  (by decide) (by decide +kernel) (by decide)).2 (by decide +kernel)

example := C98_bech32 (cstr "bc") 2 [0, 14, 20] 3 (aa 12) (by decide) (by decide) (by decide) (by decide)
example := C98_violated_bech32 (cstr "bc") 2 [0, 32, 20] 3 (aa 12) (by decide) (by decide) (by decide) (by decide)
example := (C98_violated_bech32 (cstr "bc") 2 [0, 32, 20] 3 (aa 12) (by decide) (by decide) (by decide) (by decide)).2.2 (by decide)
example := (C98_violated_bech32 (cstr "bc") 2 [0, 33, 20] 3 (aa 12) (by decide) (by decide) (by decide) (by decide)).2.1 (by decide)
example : Release.bech32Encode true (cstr "bc") 2 [0, 33, 20] 3 (aa 12) = .ub := by decide +kernel
example := C98_witness_v0 h20 (aa 64) 64 20 mainnet (by decide) (by decide +kernel)
example := (C98_witness_v0 h20 (aa 64) 64 20 mainnet (by decide) (by decide +kernel)).1 (by decide +kernel)
example := (C98_witness_v0 h32 (aa 64) 64 20 mainnet (by decide) (by decide +kernel)).2.1 (by decide +kernel)
example := (C98_witness_v0 h20 (aa 64) 64 21 mainnet (by decide) (by decide +kernel)).2.2.1 (by decide)
example := C98_witness_unknown ([2#8] ++ h20) (aa 64) 64 mainnet (by decide) (by decide +kernel)

open Key SecpLib Secp256k1 WordSpec Bip32Spec Exkey
/-- 32 zero bytes are not a secret key. -/
theorem zero_invalid : ¬ ValidKey (List.replicate 32 0#8) := by decide +kernel
def k0 : ExKey := ⟨⟨0#8, 0#32, 0#32, vector1Chain⟩, List.replicate 32 0#8⟩
example := (C98_keys .little one32 vector1Chain (aa 33) (aa 33) (compressed gx gy) h32 33 3 5 (some (gx, gy)) 7#32 true).2.2.1
  (by decide +kernel)
example := C98_invalid_keys .little (List.replicate 32 0#8) vector1Chain (aa 32) (aa 32) k0 pb 7#32 true (by decide) zero_invalid rfl
  (by decide) true
example := C98_violated_sign .little 3 4 (List.replicate 32 0#8) h32 (aa 72) (by decide) zero_invalid (by decide +kernel) (by decide +kernel)
example := C98_violated_hardened .little gx gy vector1Chain (aa 33) (aa 32) 0x80000007#32 g_on (by decide) (by decide +kernel) (by decide)
  (by decide)
example := C98_context hist KeyContext.start (by decide +kernel)
example := (C98_extended_keys .little m1 kb p1 pb 7#32 9#32).2.1 (by decide +kernel)
example := (C98_sizes one32 (aa 300) (compressed gx gy) (some (gx, gy)) 64).1 (by decide)
example := (C98_sizes one32 (aa 300) (compressed gx gy) (some (gx, gy)) 64).2 (by decide)
end Cases
