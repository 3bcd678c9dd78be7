import Verif.Model.Hex
import Verif.Model.Base64
import Verif.Model.Base32
import Verif.Model.Bech32
import Verif.Model.Base58Check
/-!
The functions that announce lengths, in the arithmetic of a `size_t` of `w` bits.  The other model files use natural numbers for
them (`Hex.toHexLength` etc.).
-/
namespace SizeT
variable {w : Nat}

/-- `fingera_to_hex_length`, include/fingera_libc/hex.h:23-25. -/
def toHexLength (bufSize : BitVec w) : BitVec w := bufSize * 2#w

/-- `fingera_from_hex_length`, include/fingera_libc/hex.h:44-46. -/
def fromHexLength (strLength : BitVec w) : BitVec w := (strLength + 1#w) / 2#w

/-- `fingera_to_base64_length`, include/fingera_libc/base64.h:24-26. -/
def toBase64Length (bufSize : BitVec w) : BitVec w := ((bufSize + 2#w) / 3#w) * 4#w

/-- `fingera_to_base64_urlsafe_length`, include/fingera_libc/base64.h:35-43. -/
def toBase64UrlsafeLength (bufSize : BitVec w) : BitVec w :=
  let tail := bufSize % 3#w
  let len := (bufSize / 3#w) * 4#w
  if tail = 1#w then len + 2#w else if tail = 2#w then len + 3#w else len

/-- `fingera_from_base64_urlsafe_length`, include/fingera_libc/base64.h:75-83. -/
def fromBase64UrlsafeLength (strLen : BitVec w) : BitVec w :=
  let tail := strLen % 4#w
  let len := (strLen / 4#w) * 3#w
  if tail = 2#w then len + 1#w else if tail = 3#w then len + 2#w else len

/-- `fingera_to_base32_length`, include/fingera_libc/base32.h:23-25. -/
def toBase32Length (bufSize : BitVec w) : BitVec w := ((bufSize + 4#w) / 5#w) * 8#w

/-- `fingera_from_base32_raw_length`, src/base32.c:199-202. -/
def fromBase32RawLength (newLen : BitVec w) : Res (BitVec w) := do
  let size := (newLen / 8#w) * 5#w
  pure (size + BitVec.ofNat w (← rd Base32.TAIL_TO_BYTES (newLen % 8#w).toNat))

/-- `fingera_bech32_encode_length`, include/fingera_libc/btc/bech32.h:25-28. -/
def bech32EncodeLength (hrpLen b32Size : BitVec w) : BitVec w := hrpLen + b32Size + 7#w

/-- `fingera_to_base58_length`, include/fingera_libc/base58.h:24-26. -/
def toBase58Length (bufSize : BitVec w) : BitVec w := bufSize * 138#w / 100#w + 2#w

/-- `fingera_from_base58_length`, include/fingera_libc/base58.h:35-37. -/
def fromBase58Length (strLen : BitVec w) : BitVec w := strLen * 733#w / 1000#w + 2#w

/-- `fingera_to_base58_check_length`, include/fingera_libc/btc/base58_check.h:25-29. -/
def toBase58CheckLength (bufSize prefixSize : BitVec w) : BitVec w := toBase58Length (bufSize + 4#w + prefixSize)

/-- `fingera_from_base58_check_length`, include/fingera_libc/btc/base58_check.h:38-41. -/
def fromBase58CheckLength (strLen : BitVec w) : BitVec w := fromBase58Length strLen

end SizeT
