import Verif.Model.Basic
/-! Model of `src/base64.c` and the length functions of `include/fingera_libc/base64.h`. -/
namespace Base64

/-- src/base64.c:4-5 (65 bytes, with the terminating NUL). -/
def BASE64_STANDARD_ENCODE : List Byte :=
  cstr "ABCDEFGHIJKLMNOPQRSTUVWXYZabcdefghijklmnopqrstuvwxyz0123456789+/" ++ [0]

/-- src/base64.c:6-7 (65 bytes, with the terminating NUL). -/
def BASE64_URLSAFE_ENCODE : List Byte :=
  cstr "ABCDEFGHIJKLMNOPQRSTUVWXYZabcdefghijklmnopqrstuvwxyz0123456789-_" ++ [0]

/-- `BASE64_STANDARD_DECODE`, src/base64.c:8-36 (256 entries, copied mechanically). -/
def BASE64_STANDARD_DECODE : List Byte := [
  0xFF, 0xFF, 0xFF, 0xFF, 0xFF, 0xFF, 0xFF, 0xFF, 0xFF, 0xFF, 0xFF, 0xFF,
  0xFF, 0xFF, 0xFF, 0xFF, 0xFF, 0xFF, 0xFF, 0xFF, 0xFF, 0xFF, 0xFF, 0xFF,
  0xFF, 0xFF, 0xFF, 0xFF, 0xFF, 0xFF, 0xFF, 0xFF, 0xFF, 0xFF, 0xFF, 0xFF,
  0xFF, 0xFF, 0xFF, 0xFF, 0xFF, 0xFF, 0xFF, 0x3E, 0xFF, 0xFF, 0xFF, 0x3F,
  0x34, 0x35, 0x36, 0x37, 0x38, 0x39, 0x3A, 0x3B, 0x3C, 0x3D, 0xFF, 0xFF,
  0xFF, 0x00, 0xFF, 0xFF, 0xFF, 0x00, 0x01, 0x02, 0x03, 0x04, 0x05, 0x06,
  0x07, 0x08, 0x09, 0x0A, 0x0B, 0x0C, 0x0D, 0x0E, 0x0F, 0x10, 0x11, 0x12,
  0x13, 0x14, 0x15, 0x16, 0x17, 0x18, 0x19, 0xFF, 0xFF, 0xFF, 0xFF, 0xFF,
  0xFF, 0x1A, 0x1B, 0x1C, 0x1D, 0x1E, 0x1F, 0x20, 0x21, 0x22, 0x23, 0x24,
  0x25, 0x26, 0x27, 0x28, 0x29, 0x2A, 0x2B, 0x2C, 0x2D, 0x2E, 0x2F, 0x30,
  0x31, 0x32, 0x33, 0xFF, 0xFF, 0xFF, 0xFF, 0xFF, 0xFF, 0xFF, 0xFF, 0xFF,
  0xFF, 0xFF, 0xFF, 0xFF, 0xFF, 0xFF, 0xFF, 0xFF, 0xFF, 0xFF, 0xFF, 0xFF,
  0xFF, 0xFF, 0xFF, 0xFF, 0xFF, 0xFF, 0xFF, 0xFF, 0xFF, 0xFF, 0xFF, 0xFF,
  0xFF, 0xFF, 0xFF, 0xFF, 0xFF, 0xFF, 0xFF, 0xFF, 0xFF, 0xFF, 0xFF, 0xFF,
  0xFF, 0xFF, 0xFF, 0xFF, 0xFF, 0xFF, 0xFF, 0xFF, 0xFF, 0xFF, 0xFF, 0xFF,
  0xFF, 0xFF, 0xFF, 0xFF, 0xFF, 0xFF, 0xFF, 0xFF, 0xFF, 0xFF, 0xFF, 0xFF,
  0xFF, 0xFF, 0xFF, 0xFF, 0xFF, 0xFF, 0xFF, 0xFF, 0xFF, 0xFF, 0xFF, 0xFF,
  0xFF, 0xFF, 0xFF, 0xFF, 0xFF, 0xFF, 0xFF, 0xFF, 0xFF, 0xFF, 0xFF, 0xFF,
  0xFF, 0xFF, 0xFF, 0xFF, 0xFF, 0xFF, 0xFF, 0xFF, 0xFF, 0xFF, 0xFF, 0xFF,
  0xFF, 0xFF, 0xFF, 0xFF, 0xFF, 0xFF, 0xFF, 0xFF, 0xFF, 0xFF, 0xFF, 0xFF,
  0xFF, 0xFF, 0xFF, 0xFF, 0xFF, 0xFF, 0xFF, 0xFF, 0xFF, 0xFF, 0xFF, 0xFF,
  0xFF, 0xFF, 0xFF, 0xFF]

/-- `BASE64_URLSAFE_DECODE`, src/base64.c:37-65 (256 entries, copied mechanically). -/
def BASE64_URLSAFE_DECODE : List Byte := [
  0xFF, 0xFF, 0xFF, 0xFF, 0xFF, 0xFF, 0xFF, 0xFF, 0xFF, 0xFF, 0xFF, 0xFF,
  0xFF, 0xFF, 0xFF, 0xFF, 0xFF, 0xFF, 0xFF, 0xFF, 0xFF, 0xFF, 0xFF, 0xFF,
  0xFF, 0xFF, 0xFF, 0xFF, 0xFF, 0xFF, 0xFF, 0xFF, 0xFF, 0xFF, 0xFF, 0xFF,
  0xFF, 0xFF, 0xFF, 0xFF, 0xFF, 0xFF, 0xFF, 0xFF, 0xFF, 0x3E, 0xFF, 0xFF,
  0x34, 0x35, 0x36, 0x37, 0x38, 0x39, 0x3A, 0x3B, 0x3C, 0x3D, 0xFF, 0xFF,
  0xFF, 0xFF, 0xFF, 0xFF, 0xFF, 0x00, 0x01, 0x02, 0x03, 0x04, 0x05, 0x06,
  0x07, 0x08, 0x09, 0x0A, 0x0B, 0x0C, 0x0D, 0x0E, 0x0F, 0x10, 0x11, 0x12,
  0x13, 0x14, 0x15, 0x16, 0x17, 0x18, 0x19, 0xFF, 0xFF, 0xFF, 0xFF, 0x3F,
  0xFF, 0x1A, 0x1B, 0x1C, 0x1D, 0x1E, 0x1F, 0x20, 0x21, 0x22, 0x23, 0x24,
  0x25, 0x26, 0x27, 0x28, 0x29, 0x2A, 0x2B, 0x2C, 0x2D, 0x2E, 0x2F, 0x30,
  0x31, 0x32, 0x33, 0xFF, 0xFF, 0xFF, 0xFF, 0xFF, 0xFF, 0xFF, 0xFF, 0xFF,
  0xFF, 0xFF, 0xFF, 0xFF, 0xFF, 0xFF, 0xFF, 0xFF, 0xFF, 0xFF, 0xFF, 0xFF,
  0xFF, 0xFF, 0xFF, 0xFF, 0xFF, 0xFF, 0xFF, 0xFF, 0xFF, 0xFF, 0xFF, 0xFF,
  0xFF, 0xFF, 0xFF, 0xFF, 0xFF, 0xFF, 0xFF, 0xFF, 0xFF, 0xFF, 0xFF, 0xFF,
  0xFF, 0xFF, 0xFF, 0xFF, 0xFF, 0xFF, 0xFF, 0xFF, 0xFF, 0xFF, 0xFF, 0xFF,
  0xFF, 0xFF, 0xFF, 0xFF, 0xFF, 0xFF, 0xFF, 0xFF, 0xFF, 0xFF, 0xFF, 0xFF,
  0xFF, 0xFF, 0xFF, 0xFF, 0xFF, 0xFF, 0xFF, 0xFF, 0xFF, 0xFF, 0xFF, 0xFF,
  0xFF, 0xFF, 0xFF, 0xFF, 0xFF, 0xFF, 0xFF, 0xFF, 0xFF, 0xFF, 0xFF, 0xFF,
  0xFF, 0xFF, 0xFF, 0xFF, 0xFF, 0xFF, 0xFF, 0xFF, 0xFF, 0xFF, 0xFF, 0xFF,
  0xFF, 0xFF, 0xFF, 0xFF, 0xFF, 0xFF, 0xFF, 0xFF, 0xFF, 0xFF, 0xFF, 0xFF,
  0xFF, 0xFF, 0xFF, 0xFF, 0xFF, 0xFF, 0xFF, 0xFF, 0xFF, 0xFF, 0xFF, 0xFF,
  0xFF, 0xFF, 0xFF, 0xFF]

/-- `fingera_to_base64_length`, include/fingera_libc/base64.h:24-26. -/
def toBase64Length (bufSize : Nat) : Nat := (bufSize + 2) / 3 * 4

/-- `fingera_to_base64_urlsafe_length`, include/fingera_libc/base64.h:35-43. -/
def toBase64UrlsafeLength (bufSize : Nat) : Nat :=
  let tail := bufSize % 3
  let len := bufSize / 3 * 4
  if tail = 1 then len + 2 else if tail = 2 then len + 3 else len

/-- `fingera_from_base64_urlsafe_length`, include/fingera_libc/base64.h:75-83. -/
def fromBase64UrlsafeLength (strLen : Nat) : Nat :=
  let tail := strLen % 4
  let len := strLen / 4 * 3
  if tail = 2 then len + 1 else if tail = 3 then len + 2 else len

/-- The two `if`s that drop up to two trailing `'='`: include/fingera_libc/base64.h:93-96 and
src/base64.c:172-175. -/
def stripLen (str : List Byte) (strLen : Nat) : Res Nat := do
  if strLen > 0 then
    if (← rd str (strLen - 1)) = chr '=' then
      let strLen := strLen - 1
      if strLen > 0 then
        if (← rd str (strLen - 1)) = chr '=' then pure (strLen - 1) else pure strLen
      else pure strLen
    else pure strLen
  else pure strLen

/-- `fingera_from_base64_length`, include/fingera_libc/base64.h:91-98. -/
def fromBase64Length (str : List Byte) (strLen : Nat) : Res Nat := do
  let strLen ← stripLen str strLen
  pure (fromBase64UrlsafeLength strLen)

/-- src/base64.c:72-73. -/
def encodeStr (url : Bool) : List Byte := if url then BASE64_URLSAFE_ENCODE else BASE64_STANDARD_ENCODE

/-- Loop body of `_fingera_to_base64`, src/base64.c:75-88; the pointers are `input = buf + 3*j`,
`out = out0 + 4*j`. -/
def encBody (url : Bool) (buf : List Byte) (j : Nat) (out : List Byte) : Res (List Byte) := do
  let i0 ← rd buf (3*j)
  let i1 ← rd buf (3*j+1)
  let i2 ← rd buf (3*j+2)
  let byte1 := i0 >>> 2
  let byte2 := ((i0 &&& 0x3) <<< 4) ||| (i1 >>> 4)
  let byte3 := ((i1 &&& 0xF) <<< 2) ||| (i2 >>> 6)
  let byte4 := i2 &&& 0x3F
  let out ← wr out (4*j) (← rd (encodeStr url) byte1.toNat)
  let out ← wr out (4*j+1) (← rd (encodeStr url) byte2.toNat)
  let out ← wr out (4*j+2) (← rd (encodeStr url) byte3.toNat)
  wr out (4*j+3) (← rd (encodeStr url) byte4.toNat)

/-- Tail of `_fingera_to_base64`, src/base64.c:90-107; `n` is the number of complete groups. -/
def encTail (url : Bool) (buf : List Byte) (n tailLen : Nat) (out : List Byte) :
    Res (List Byte) := do
  if tailLen ≠ 0 then
    let i0 ← rd buf (3*n)
    let byte1 := i0 >>> 2
    let byte2 := (i0 &&& 0x3) <<< 4
    let out ← wr out (4*n) (← rd (encodeStr url) byte1.toNat)
    if tailLen = 2 then
      let i1 ← rd buf (3*n+1)
      let byte2 := byte2 ||| (i1 >>> 4)
      let byte3 := (i1 &&& 0xF) <<< 2
      let out ← wr out (4*n+1) (← rd (encodeStr url) byte2.toNat)
      let out ← wr out (4*n+2) (← rd (encodeStr url) byte3.toNat)
      if !url then wr out (4*n+3) (chr '=') else pure out
    else
      let out ← wr out (4*n+1) (← rd (encodeStr url) byte2.toNat)
      if !url then
        let out ← wr out (4*n+2) (chr '=')
        wr out (4*n+3) (chr '=')
      else pure out
  else pure out

/-- `_fingera_to_base64`, src/base64.c:67-108.  `i` runs over `0,3,6,… < loop_size`, i.e.
`bufSize / 3` iterations. -/
def toBase64Impl (buf : List Byte) (bufSize : Nat) (out : List Byte) (url : Bool) :
    Res (List Byte) := do
  let out ← forLoop (encBody url buf) 0 (bufSize / 3) out
  encTail url buf (bufSize / 3) (bufSize % 3) out

/-- `fingera_to_base64`, src/base64.c:110-112. -/
def toBase64 (buf : List Byte) (bufSize : Nat) (str : List Byte) : Res (List Byte) :=
  toBase64Impl buf bufSize str false

/-- `fingera_to_base64_urlsafe`, src/base64.c:114-116. -/
def toBase64Urlsafe (buf : List Byte) (bufSize : Nat) (str : List Byte) : Res (List Byte) :=
  toBase64Impl buf bufSize str true

/-- src/base64.c:125-126. -/
def decodeStr (url : Bool) : List Byte := if url then BASE64_URLSAFE_DECODE else BASE64_STANDARD_DECODE

/-- Loop body of `_fingera_from_base64`, src/base64.c:128-145 (`input = str + 4*j`,
`output = buf + 3*j`). `stop` is the `return`. -/
def decBody (url : Bool) (str : List Byte) (j : Nat) (buf : List Byte) :
    Res (Step (List Byte) (List Byte × Nat)) := do
  let byte1 ← rd (decodeStr url) (← rd str (4*j)).toNat
  let byte2 ← rd (decodeStr url) (← rd str (4*j+1)).toNat
  let byte3 ← rd (decodeStr url) (← rd str (4*j+2)).toNat
  let byte4 ← rd (decodeStr url) (← rd str (4*j+3)).toNat
  if byte1 = 0xFF ∨ byte2 = 0xFF ∨ byte3 = 0xFF ∨ byte4 = 0xFF then
    pure (.stop (buf, 3*j))
  else
    let buf ← wr buf (3*j) ((byte1 <<< 2) ||| (byte2 >>> 4))
    let buf ← wr buf (3*j+1) ((byte2 <<< 4) ||| (byte3 >>> 2))
    let buf ← wr buf (3*j+2) ((byte3 <<< 6) ||| byte4)
    pure (.next buf)

/-- The `switch (tail_len)` and final `return` of `_fingera_from_base64`, src/base64.c:147-168. -/
def decTail (url : Bool) (str : List Byte) (n tailLen : Nat) (buf : List Byte) :
    Res (List Byte × Nat) := do
  if tailLen = 2 then
    let byte1 ← rd (decodeStr url) (← rd str (4*n)).toNat
    let byte2 ← rd (decodeStr url) (← rd str (4*n+1)).toNat
    if byte1 = 0xFF ∨ byte2 = 0xFF then pure (buf, 3*n)
    else
      let buf ← wr buf (3*n) ((byte1 <<< 2) ||| ((byte2 >>> 4) &&& 0x3))
      pure (buf, 3*n+1)
  else if tailLen = 3 then
    let byte1 ← rd (decodeStr url) (← rd str (4*n)).toNat
    let byte2 ← rd (decodeStr url) (← rd str (4*n+1)).toNat
    let byte3 ← rd (decodeStr url) (← rd str (4*n+2)).toNat
    if byte1 = 0xFF ∨ byte2 = 0xFF ∨ byte3 = 0xFF then pure (buf, 3*n)
    else
      let buf ← wr buf (3*n) ((byte1 <<< 2) ||| ((byte2 >>> 4) &&& 0x3))
      let buf ← wr buf (3*n+1) ((byte2 <<< 4) ||| ((byte3 >>> 2) &&& 0xF))
      pure (buf, 3*n+2)
  else pure (buf, 3*n)

/-- `_fingera_from_base64`, src/base64.c:118-169.  Returns the output object and the count. -/
def fromBase64Impl (str : List Byte) (strLen : Nat) (buf : List Byte) (url : Bool) :
    Res (List Byte × Nat) := do
  match ← forLoopB (decBody url str) 0 (strLen / 4) buf with
  | .stop r => pure r
  | .next buf => decTail url str (strLen / 4) (strLen % 4) buf

/-- `fingera_from_base64`, src/base64.c:171-177. -/
def fromBase64 (str : List Byte) (strLen : Nat) (buf : List Byte) : Res (List Byte × Nat) := do
  let strLen ← stripLen str strLen
  fromBase64Impl str strLen buf false

/-- `fingera_from_base64_urlsafe`, src/base64.c:179-181. -/
def fromBase64Urlsafe (str : List Byte) (strLen : Nat) (buf : List Byte) : Res (List Byte × Nat) :=
  fromBase64Impl str strLen buf true

end Base64
