import Verif.Replay.Basic
import Verif.Model.Hex
import Verif.Model.Base64
import Verif.Model.Base32
import Verif.Model.Base58
import Verif.Model.CompressInteger
/-!
The project's own test cases (`/repo/tests`), replayed on the model by evaluation in the kernel.  These are tests of the model, not proofs
of properties: they guard against misreadings of the C text.  Generated by `tools/replay_gen.py`.
-/
namespace Replay

/-- `encdec_test`, tests/base58.cpp 9-37. -/
def base58Case (hex encoded : String) : Bool :=
  let data := ofHex hex
  gives (Base58.toBase58 data data.length (zeros 128)) (padded (cstr encoded) 128, encoded.length) &&
  gives (Base58.fromBase58 true (obj encoded) encoded.length (zeros 128)) (padded data 128, data.length)

example : (base58Case "" "" &&
    base58Case "61" "2g" &&
    base58Case "626262" "a3gV" &&
    base58Case "636363" "aPEr") = true := by decide +kernel

example : (base58Case "73696d706c792061206c6f6e6720737472696e67" "2cFupjhnEsSn59qHXstmK2ffpLv2" &&
    base58Case "00eb15231dfceb60925886b67d065299925915aeb172c06647" "1NS17iag9jJgTHD1VXjvLCEnZuQ3rJDE9L" &&
    base58Case "516b6fcd0f" "ABnLTmg" &&
    base58Case "bf4f89001e670274dd" "3SEo3LWLoPntC") = true := by decide +kernel

example : (base58Case "572e4794" "3EFU7m" &&
    base58Case "ecac89cad93923c02321" "EJDM8drfXA6uyA" &&
    base58Case "10c8511e" "Rt5zm" &&
    base58Case "00000000000000000000" "1111111111") = true := by decide +kernel

example : (base58Case "000111d38e5fc9071ffcd20b4a763cc9ae4f252bb4e48fd66a835e252ada93ff480d6dd43dc62a641155a5" "123456789ABCDEFGHJKLMNPQRSTUVWXYZabcdefghijkmnopqrstuvwxyz") = true := by decide +kernel

/-- tests/base58.cpp 39-62. -/
def base58Buffer : List Byte :=
  ofHex "031bab84e687e36514eeaf5a017c30d32c1f59dd4ea6629da7970ca374513dd006"

example : gives (Base58.toBase58 base58Buffer 33 (zeros 256)) (padded (cstr "vYxp6yFC7qiVtK1RcGQQt3L6EqTc8YhEDLnSMLqDvp8D") 256, 44) =
    true := by decide +kernel
example : gives (Base58.fromBase58 true (obj " vYxp6yFC7qiVtK1RcGQQt3L6EqTc8YhEDLnSMLqDvp8D ") 46 (zeros 256))
    (padded base58Buffer 256, 33) = true := by decide +kernel
example : gives ((·.2) <$> Base58.fromBase58 true (obj " vYxp6yFC7qiVtK1RcGQQt3L6EqTc8YhEDLnSMLqDvp8D aa") 48 (zeros 256)) 0 = true := by
  decide +kernel

/-- The loop of tests/base32.cpp 15-38. -/
def base32Case (vIn vOut : String) : Bool :=
  let i := obj vIn
  let o := obj vOut
  gives (Base32.toBase32 i vIn.length (zeros 256)) (padded (cstr vOut) 256) &&
  decide (Base32.toBase32Length vIn.length = vOut.length) &&
  gives (Base32.fromBase32Length o vOut.length) vIn.length &&
  gives (Base32.fromBase32 true o vOut.length (zeros 256)) (padded (cstr vIn) 256, vIn.length) &&
  gives (do
    let (raw, n) ← Base32.toBase32Raw i vIn.length (zeros 256)
    Base32.fromBase32Raw true raw n (zeros 256)) (padded (cstr vIn) 256, vIn.length)

example : (base32Case "" "" &&
    base32Case "f" "my======") = true := by decide +kernel

example : (base32Case "fo" "mzxq====" &&
    base32Case "foo" "mzxw6===") = true := by decide +kernel

example : (base32Case "foob" "mzxw6yq=" &&
    base32Case "fooba" "mzxw6ytb") = true := by decide +kernel

example : (base32Case "foobar" "mzxw6ytboi======" &&
    base32Case "abcdefghijklmn" "mfrggzdfmztwq2lknnwg23q=") = true := by decide +kernel

example : gives ((·.2) <$> Base32.fromBase32 true (obj "mzxw6ytb#mzxw6ytb") 17 (zeros 256)) 5 = true := by decide +kernel

/-- The loop of tests/base64.cpp 27-49 for the first `i` bytes of 0, 1, 2, … -/
def base64Case (i : Nat) (standard urlsafe : String) : Bool :=
  let buf : List Byte := (List.range 256).map (BitVec.ofNat 8)
  gives (Base64.toBase64 buf i (zeros 512)) (padded (cstr standard) 512) &&
  decide (Base64.toBase64Length i = standard.length) &&
  gives (Base64.fromBase64 (obj standard) standard.length (zeros 256)) (padded (buf.take i) 256, i) &&
  gives (Base64.fromBase64Length (obj standard) standard.length) i &&
  gives (Base64.toBase64Urlsafe buf i (zeros 512)) (padded (cstr urlsafe) 512) &&
  decide (Base64.toBase64UrlsafeLength i = urlsafe.length) &&
  gives (Base64.fromBase64Urlsafe (obj urlsafe) urlsafe.length (zeros 256)) (padded (buf.take i) 256, i) &&
  decide (Base64.fromBase64UrlsafeLength urlsafe.length = i)

example : (base64Case 0 "" "") = true := by decide +kernel

example : (base64Case 1 "AA==" "AA") = true := by decide +kernel

example : (base64Case 2 "AAE=" "AAE") = true := by decide +kernel

example : (base64Case 3 "AAEC" "AAEC") = true := by decide +kernel

example : (base64Case 4 "AAECAw==" "AAECAw") = true := by decide +kernel

example : (base64Case 5 "AAECAwQ=" "AAECAwQ") = true := by decide +kernel

example : (base64Case 6 "AAECAwQF" "AAECAwQF") = true := by decide +kernel

example : (base64Case 63 "AAECAwQFBgcICQoLDA0ODxAREhMUFRYXGBkaGxwdHh8gISIjJCUmJygpKissLS4vMDEyMzQ1Njc4OTo7PD0+" "AAECAwQFBgcICQoLDA0ODxAREhMUFRYXGBkaGxwdHh8gISIjJCUmJygpKissLS4vMDEyMzQ1Njc4OTo7PD0-") = true := by decide +kernel

example : (base64Case 64 "AAECAwQFBgcICQoLDA0ODxAREhMUFRYXGBkaGxwdHh8gISIjJCUmJygpKissLS4vMDEyMzQ1Njc4OTo7PD0+Pw==" "AAECAwQFBgcICQoLDA0ODxAREhMUFRYXGBkaGxwdHh8gISIjJCUmJygpKissLS4vMDEyMzQ1Njc4OTo7PD0-Pw") = true := by decide +kernel

example : (base64Case 65 "AAECAwQFBgcICQoLDA0ODxAREhMUFRYXGBkaGxwdHh8gISIjJCUmJygpKissLS4vMDEyMzQ1Njc4OTo7PD0+P0A=" "AAECAwQFBgcICQoLDA0ODxAREhMUFRYXGBkaGxwdHh8gISIjJCUmJygpKissLS4vMDEyMzQ1Njc4OTo7PD0-P0A") = true := by decide +kernel

example : gives ((·.2) <$> Base64.fromBase64 (obj "AAEC#AwQF") 9 (zeros 256)) 3 = true := by decide +kernel

/-- The loop of tests/compress_integer.cpp 63-73. -/
def varintCase (value : U64) (buf : List Byte) (len : Nat) : Bool :=
  gives (CompressInteger.encodeVarint (List.replicate 10 0xAA#8) value (zeros 10)) (padded buf 10, len) &&
  gives (CompressInteger.decodeVarint buf len) (value, len)

example : (varintCase 0#64 [0x00#8] 1 &&
    varintCase 0x7F#64 [0x7F#8] 1 &&
    varintCase 0x80#64 [0x80#8, 0x00#8] 2 &&
    varintCase 0x81#64 [0x80#8, 0x01#8] 2 &&
    varintCase 0x407F#64 [0xFF#8, 0x7F#8] 2 &&
    varintCase 0x4080#64 [0x80#8, 0x80#8, 0x00#8] 3 &&
    varintCase 0x4081#64 [0x80#8, 0x80#8, 0x01#8] 3 &&
    varintCase 0x20407F#64 [0xFF#8, 0xFF#8, 0x7F#8] 3 &&
    varintCase 0x204080#64 [0x80#8, 0x80#8, 0x80#8, 0x00#8] 4) = true := by decide +kernel

example : (varintCase 0x204081#64 [0x80#8, 0x80#8, 0x80#8, 0x01#8] 4 &&
    varintCase 0x1020407F#64 [0xFF#8, 0xFF#8, 0xFF#8, 0x7F#8] 4 &&
    varintCase 0x10204080#64 [0x80#8, 0x80#8, 0x80#8, 0x80#8, 0x00#8] 5 &&
    varintCase 0x10204081#64 [0x80#8, 0x80#8, 0x80#8, 0x80#8, 0x01#8] 5 &&
    varintCase 0x081020407F#64 [0xFF#8, 0xFF#8, 0xFF#8, 0xFF#8, 0x7F#8] 5 &&
    varintCase 0x0810204080#64 [0x80#8, 0x80#8, 0x80#8, 0x80#8, 0x80#8, 0x00#8] 6 &&
    varintCase 0x0810204081#64 [0x80#8, 0x80#8, 0x80#8, 0x80#8, 0x80#8, 0x01#8] 6 &&
    varintCase 0x04081020407F#64 [0xFF#8, 0xFF#8, 0xFF#8, 0xFF#8, 0xFF#8, 0x7F#8] 6 &&
    varintCase 0x040810204080#64 [0x80#8, 0x80#8, 0x80#8, 0x80#8, 0x80#8, 0x80#8, 0x00#8] 7) = true := by decide +kernel

example : (varintCase 0x040810204081#64 [0x80#8, 0x80#8, 0x80#8, 0x80#8, 0x80#8, 0x80#8, 0x01#8] 7 &&
    varintCase 0x0204081020407F#64 [0xFF#8, 0xFF#8, 0xFF#8, 0xFF#8, 0xFF#8, 0xFF#8, 0x7F#8] 7 &&
    varintCase 0x02040810204080#64 [0x80#8, 0x80#8, 0x80#8, 0x80#8, 0x80#8, 0x80#8, 0x80#8, 0x00#8] 8 &&
    varintCase 0x02040810204081#64 [0x80#8, 0x80#8, 0x80#8, 0x80#8, 0x80#8, 0x80#8, 0x80#8, 0x01#8] 8 &&
    varintCase 0x010204081020407F#64 [0xFF#8, 0xFF#8, 0xFF#8, 0xFF#8, 0xFF#8, 0xFF#8, 0xFF#8, 0x7F#8] 8 &&
    varintCase 0x0102040810204080#64 [0x80#8, 0x80#8, 0x80#8, 0x80#8, 0x80#8, 0x80#8, 0x80#8, 0x80#8, 0x00#8] 9 &&
    varintCase 0x0102040810204081#64 [0x80#8, 0x80#8, 0x80#8, 0x80#8, 0x80#8, 0x80#8, 0x80#8, 0x80#8, 0x01#8] 9 &&
    varintCase 0x810204081020407F#64 [0xFF#8, 0xFF#8, 0xFF#8, 0xFF#8, 0xFF#8, 0xFF#8, 0xFF#8, 0xFF#8, 0x7F#8] 9 &&
    varintCase 0xFFFFFFFFFFFFFFFF#64 [0x80#8, 0xFE#8, 0xFE#8, 0xFE#8, 0xFE#8, 0xFE#8, 0xFE#8, 0xFE#8, 0xFE#8, 0x7F#8] 10) = true := by decide +kernel

/-- The loop of tests/compress_integer.cpp 162-173. -/
def zigzagCase (value : U64) (buf : List Byte) (len : Nat) : Bool :=
  gives (CompressInteger.encodeZigzag (List.replicate 10 0xAA#8) value (zeros 10)) (padded buf 10, len) &&
  gives (CompressInteger.decodeZigzag buf len 0#64) (value, len)

example : (zigzagCase 0#64 [0x00#8] 1 &&
    zigzagCase 0x3F#64 [0x7E#8] 1 &&
    zigzagCase 0x40#64 [0x80#8, 0x00#8] 2 &&
    zigzagCase 0x41#64 [0x80#8, 0x02#8] 2 &&
    zigzagCase 0x203F#64 [0xFF#8, 0x7E#8] 2 &&
    zigzagCase 0x2040#64 [0x80#8, 0x80#8, 0x00#8] 3 &&
    zigzagCase 0x2041#64 [0x80#8, 0x80#8, 0x02#8] 3 &&
    zigzagCase 0x10203F#64 [0xFF#8, 0xFF#8, 0x7E#8] 3 &&
    zigzagCase 0x102040#64 [0x80#8, 0x80#8, 0x80#8, 0x00#8] 4 &&
    zigzagCase 0x102041#64 [0x80#8, 0x80#8, 0x80#8, 0x02#8] 4) = true := by decide +kernel

example : (zigzagCase 0x0810203F#64 [0xFF#8, 0xFF#8, 0xFF#8, 0x7E#8] 4 &&
    zigzagCase 0x08102040#64 [0x80#8, 0x80#8, 0x80#8, 0x80#8, 0x00#8] 5 &&
    zigzagCase 0x08102041#64 [0x80#8, 0x80#8, 0x80#8, 0x80#8, 0x02#8] 5 &&
    zigzagCase 0x040810203F#64 [0xFF#8, 0xFF#8, 0xFF#8, 0xFF#8, 0x7E#8] 5 &&
    zigzagCase 0x0408102040#64 [0x80#8, 0x80#8, 0x80#8, 0x80#8, 0x80#8, 0x00#8] 6 &&
    zigzagCase 0x0408102041#64 [0x80#8, 0x80#8, 0x80#8, 0x80#8, 0x80#8, 0x02#8] 6 &&
    zigzagCase 0x02040810203F#64 [0xFF#8, 0xFF#8, 0xFF#8, 0xFF#8, 0xFF#8, 0x7E#8] 6 &&
    zigzagCase 0x020408102040#64 [0x80#8, 0x80#8, 0x80#8, 0x80#8, 0x80#8, 0x80#8, 0x00#8] 7 &&
    zigzagCase 0x020408102041#64 [0x80#8, 0x80#8, 0x80#8, 0x80#8, 0x80#8, 0x80#8, 0x02#8] 7 &&
    zigzagCase 0x0102040810203F#64 [0xFF#8, 0xFF#8, 0xFF#8, 0xFF#8, 0xFF#8, 0xFF#8, 0x7E#8] 7) = true := by decide +kernel

example : (zigzagCase 0x01020408102040#64 [0x80#8, 0x80#8, 0x80#8, 0x80#8, 0x80#8, 0x80#8, 0x80#8, 0x00#8] 8 &&
    zigzagCase 0x01020408102041#64 [0x80#8, 0x80#8, 0x80#8, 0x80#8, 0x80#8, 0x80#8, 0x80#8, 0x02#8] 8 &&
    zigzagCase 0x08102040810203F#64 [0xFF#8, 0xFF#8, 0xFF#8, 0xFF#8, 0xFF#8, 0xFF#8, 0xFF#8, 0x7E#8] 8 &&
    zigzagCase 0x081020408102040#64 [0x80#8, 0x80#8, 0x80#8, 0x80#8, 0x80#8, 0x80#8, 0x80#8, 0x80#8, 0x00#8] 9 &&
    zigzagCase 0x081020408102041#64 [0x80#8, 0x80#8, 0x80#8, 0x80#8, 0x80#8, 0x80#8, 0x80#8, 0x80#8, 0x02#8] 9 &&
    zigzagCase 0x408102040810203F#64 [0xFF#8, 0xFF#8, 0xFF#8, 0xFF#8, 0xFF#8, 0xFF#8, 0xFF#8, 0xFF#8, 0x7E#8] 9 &&
    zigzagCase 0x4081020408102040#64 [0x80#8, 0x80#8, 0x80#8, 0x80#8, 0x80#8, 0x80#8, 0x80#8, 0x80#8, 0x80#8, 0x00#8] 10 &&
    zigzagCase 0x4081020408102041#64 [0x80#8, 0x80#8, 0x80#8, 0x80#8, 0x80#8, 0x80#8, 0x80#8, 0x80#8, 0x80#8, 0x02#8] 10 &&
    zigzagCase 0x7FFFFFFFFFFFFFFF#64 [0x80#8, 0xFE#8, 0xFE#8, 0xFE#8, 0xFE#8, 0xFE#8, 0xFE#8, 0xFE#8, 0xFE#8, 0x7E#8] 10 &&
    zigzagCase (-0x3F#64) [0x7F#8] 1) = true := by decide +kernel

example : (zigzagCase (-0x40#64) [0x80#8, 0x01#8] 2 &&
    zigzagCase (-0x41#64) [0x80#8, 0x03#8] 2 &&
    zigzagCase (-0x203F#64) [0xFF#8, 0x7F#8] 2 &&
    zigzagCase (-0x2040#64) [0x80#8, 0x80#8, 0x01#8] 3 &&
    zigzagCase (-0x2041#64) [0x80#8, 0x80#8, 0x03#8] 3 &&
    zigzagCase (-0x10203F#64) [0xFF#8, 0xFF#8, 0x7F#8] 3 &&
    zigzagCase (-0x102040#64) [0x80#8, 0x80#8, 0x80#8, 0x01#8] 4 &&
    zigzagCase (-0x102041#64) [0x80#8, 0x80#8, 0x80#8, 0x03#8] 4 &&
    zigzagCase (-0x0810203F#64) [0xFF#8, 0xFF#8, 0xFF#8, 0x7F#8] 4 &&
    zigzagCase (-0x08102040#64) [0x80#8, 0x80#8, 0x80#8, 0x80#8, 0x01#8] 5) = true := by decide +kernel

example : (zigzagCase (-0x08102041#64) [0x80#8, 0x80#8, 0x80#8, 0x80#8, 0x03#8] 5 &&
    zigzagCase (-0x040810203F#64) [0xFF#8, 0xFF#8, 0xFF#8, 0xFF#8, 0x7F#8] 5 &&
    zigzagCase (-0x0408102040#64) [0x80#8, 0x80#8, 0x80#8, 0x80#8, 0x80#8, 0x01#8] 6 &&
    zigzagCase (-0x0408102041#64) [0x80#8, 0x80#8, 0x80#8, 0x80#8, 0x80#8, 0x03#8] 6 &&
    zigzagCase (-0x02040810203F#64) [0xFF#8, 0xFF#8, 0xFF#8, 0xFF#8, 0xFF#8, 0x7F#8] 6 &&
    zigzagCase (-0x020408102040#64) [0x80#8, 0x80#8, 0x80#8, 0x80#8, 0x80#8, 0x80#8, 0x01#8] 7 &&
    zigzagCase (-0x020408102041#64) [0x80#8, 0x80#8, 0x80#8, 0x80#8, 0x80#8, 0x80#8, 0x03#8] 7 &&
    zigzagCase (-0x0102040810203F#64) [0xFF#8, 0xFF#8, 0xFF#8, 0xFF#8, 0xFF#8, 0xFF#8, 0x7F#8] 7 &&
    zigzagCase (-0x01020408102040#64) [0x80#8, 0x80#8, 0x80#8, 0x80#8, 0x80#8, 0x80#8, 0x80#8, 0x01#8] 8 &&
    zigzagCase (-0x01020408102041#64) [0x80#8, 0x80#8, 0x80#8, 0x80#8, 0x80#8, 0x80#8, 0x80#8, 0x03#8] 8) = true := by decide +kernel

example : (zigzagCase (-0x08102040810203F#64) [0xFF#8, 0xFF#8, 0xFF#8, 0xFF#8, 0xFF#8, 0xFF#8, 0xFF#8, 0x7F#8] 8 &&
    zigzagCase (-0x081020408102040#64) [0x80#8, 0x80#8, 0x80#8, 0x80#8, 0x80#8, 0x80#8, 0x80#8, 0x80#8, 0x01#8] 9 &&
    zigzagCase (-0x081020408102041#64) [0x80#8, 0x80#8, 0x80#8, 0x80#8, 0x80#8, 0x80#8, 0x80#8, 0x80#8, 0x03#8] 9 &&
    zigzagCase (-0x408102040810203F#64) [0xFF#8, 0xFF#8, 0xFF#8, 0xFF#8, 0xFF#8, 0xFF#8, 0xFF#8, 0xFF#8, 0x7F#8] 9 &&
    zigzagCase (-0x4081020408102040#64) [0x80#8, 0x80#8, 0x80#8, 0x80#8, 0x80#8, 0x80#8, 0x80#8, 0x80#8, 0x80#8, 0x01#8] 10 &&
    zigzagCase (-0x4081020408102041#64) [0x80#8, 0x80#8, 0x80#8, 0x80#8, 0x80#8, 0x80#8, 0x80#8, 0x80#8, 0x80#8, 0x03#8] 10 &&
    zigzagCase (-0x7FFFFFFFFFFFFFFF#64) [0x80#8, 0xFE#8, 0xFE#8, 0xFE#8, 0xFE#8, 0xFE#8, 0xFE#8, 0xFE#8, 0xFE#8, 0x7F#8] 10) = true := by decide +kernel

/-- tests/compress_integer.cpp 176-187. -/
example : (List.range 16).all (fun i =>
    gives ((·.2) <$> CompressInteger.decodeVarint (List.replicate 16 0xFF#8) i) 0 &&
    gives ((·.2) <$> CompressInteger.decodeZigzag (List.replicate 16 0xFF#8) i 0#64) 0) = true := by decide +kernel

/-- The loop of tests/hex.cpp 36-60. -/
def hexCase (i : Nat) (upper lower : String) : Bool :=
  let buf : List Byte := (List.range 256).map (BitVec.ofNat 8)
  let check (u : Bool) (s : List Byte) : Bool :=
    gives (Hex.toHex buf i (zeros 513) u) (padded s 513) &&
    gives (Hex.fromHex (padded s 513) (2 * i) (zeros 256)) (padded (buf.take i) 256, i)
  check true (cstr upper) && check false (cstr lower)

example : (hexCase 0 "" "") = true := by decide +kernel

example : (hexCase 1 "00" "00") = true := by decide +kernel

example : (hexCase 17 "000102030405060708090A0B0C0D0E0F10" "000102030405060708090a0b0c0d0e0f10") = true := by decide +kernel

example : (hexCase 65 "000102030405060708090A0B0C0D0E0F101112131415161718191A1B1C1D1E1F202122232425262728292A2B2C2D2E2F303132333435363738393A3B3C3D3E3F40" "000102030405060708090a0b0c0d0e0f101112131415161718191a1b1c1d1e1f202122232425262728292a2b2c2d2e2f303132333435363738393a3b3c3d3e3f40") = true := by decide +kernel

/-- tests/hex.cpp 63-73. -/
example : [(6, 3), (7, 3), (8, 4)].all (fun p => gives ((·.2) <$> Hex.fromHex (obj "00112233") p.1 (zeros 256)) p.2) &&
    gives ((·.2) <$> Hex.fromHex (obj "001122T3") 8 (zeros 256)) 3 &&
    gives ((·.2) <$> Hex.fromHex (obj "0011223T") 8 (zeros 256)) 3 = true := by decide +kernel

end Replay
