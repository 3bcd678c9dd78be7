import Verif.Props.Need
import Verif.Cases.Keys
/-! Every theorem with hypotheses of `Props/Need`, applied to concrete arguments that meet them, with an object that fits and with one that is a byte
short. -/
namespace Cases
open AddressSpec Exkey DerSpec Key SecpLib Secp256k1

example : Hex.toHex [0x12, 0xAB] 2 (aa 4) false = .ok (cstr "12ab") ∧ Hex.toHex [0x12, 0xAB] 2 (aa 3) false = .ub := by
  decide +kernel
example : Base64.toBase64 (cstr "foob") 4 (aa 8) = .ok (cstr "Zm9vYg==") ∧ Base64.toBase64 (cstr "foob") 4 (aa 7) = .ub := by
  have h := fun o => (C94_to_base64 (cstr "foob") o).1
  rw [show (4 : Nat) = (cstr "foob").length from rfl, h, h]
  decide +kernel
example : Base32.toBase32Raw [0xFF] 1 (aa 2) = .ok ([31, 28], 2) ∧ Base32.toBase32Raw [0xFF] 1 (aa 1) = .ub := by
  decide +kernel
/-- `to_base58_length` asks for 6 characters for three bytes; four are enough here, three are not. -/
example : Base58.toBase58 (cstr "abc") 3 (aa 4) = .ok (cstr "ZiCa", 4) ∧ Base58.toBase58 (cstr "abc") 3 (aa 3) = .ub := by
  have h := fun o => C94_to_base58 (cstr "abc") o (by decide +kernel)
  rw [show (3 : Nat) = (cstr "abc").length from rfl, h, h]
  decide +kernel
example := C94_to_base58_check .little [2, 3] [0, 1] (aa 9) (by decide)
example : Base58Check.toBase58Check .little [2, 3] 2 [0, 1] 2 (aa 9) = .ub := by decide +kernel
example : Base58Check.toBase58Check .little [2, 3] 2 [0, 1] 2 (aa 10) = .ok (cstr "13DV5niCGP", 10) := by decide +kernel
example : Bech32.encode (cstr "bc") 2 [0, 14, 20] 3 (aa 12) = .ok (cstr "bc1qw56k6g7k") ∧ Bech32.encode (cstr "bc") 2 [0, 14, 20] 3 (aa 11) = .ub := by
  decide +kernel
example := C94_bech32_encode (cstr "bc") [0, 14, 20] (aa 11) (by decide)
example := C94_encode_varint (aa 10) 300#64 (by decide)
example : CompressInteger.encodeVarint (aa 10) 300#64 (aa 2) = .ok ([0x81, 0x2C], 2) ∧ CompressInteger.encodeVarint (aa 10) 300#64 (aa 1) = .ub := by
  decide +kernel
example := C94_hashes .little (cstr "abc") (aa 32) (by decide)
example : Sha2.sha2_512 .big (cstr "abc") 3 (aa 63) = .ub := by
  have h := (C94_hashes .big (cstr "abc") (aa 63) (by decide)).2.2.2
  rw [if_neg (by decide)] at h
  exact h
example := C94_hmac .little (cstr "key") (cstr "abc") (aa 63) (by decide) (by decide)
example := C94_bitcoin_hashes .little (cstr "abc") (aa 20) (by decide)
example := C94_bip32_hash .little (aa 32) 5#32 0#8 (aa 32) (aa 64) (by decide) (by decide)
example := C94_hash256_d64 .little (aa 63) (aa 128) 2 (by decide +kernel)
example : BtcHash.hash256_d64 .little (aa 63) (aa 128) 2 = .ub := by
  rw [C94_hash256_d64 .little (aa 63) (aa 128) 2 (by decide +kernel), if_neg (by decide +kernel)]
example := C94_exkey_encode .little m1 p1 (aa 74) m1_buf p1_buf
example : Exkey.exkeyEncode .little m1 (aa 73) = .ub := by
  have h := (C94_exkey_encode .little m1 p1 (aa 73) m1_buf p1_buf).1
  rw [if_neg (by decide)] at h
  exact h
example := C94_key_to_string .little .main vector1Key (aa 52) true m1_wf.1.1
example := C94_exkey_to_string .little .main m1 p1 (aa 111) m1_buf p1_buf
example := C94_key_encode false vector1Key (aa 214) true gx gy m1_wf.1
example := C94_signature_encode sg (aa 71) (by decide +kernel) (by decide +kernel)
end Cases
