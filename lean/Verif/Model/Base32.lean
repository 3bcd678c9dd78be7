import Verif.Model.Basic
/-! Model of `src/base32.c` and `include/fingera_libc/base32.h`. -/
namespace Base32

/-- src/base32.c:5 (33 bytes with the terminating NUL). -/
def BASE32_ENCODE : List Byte := cstr "abcdefghijklmnopqrstuvwxyz234567" ++ [0]

/-- `BASE32_ENCODE_RAW`, src/base32.c:6-8 (32 entries, copied mechanically). -/
def BASE32_ENCODE_RAW : List Byte := [
  0, 1, 2, 3, 4, 5, 6, 7, 8, 9, 10, 11,
  12, 13, 14, 15, 16, 17, 18, 19, 20, 21, 22, 23,
  24, 25, 26, 27, 28, 29, 30, 31]

/-- `BASE32_DECODE`, src/base32.c:9-31 (256 entries, copied mechanically). -/
def BASE32_DECODE : List Byte := [
  0xFF, 0xFF, 0xFF, 0xFF, 0xFF, 0xFF, 0xFF, 0xFF, 0xFF, 0xFF, 0xFF, 0xFF,
  0xFF, 0xFF, 0xFF, 0xFF, 0xFF, 0xFF, 0xFF, 0xFF, 0xFF, 0xFF, 0xFF, 0xFF,
  0xFF, 0xFF, 0xFF, 0xFF, 0xFF, 0xFF, 0xFF, 0xFF, 0xFF, 0xFF, 0xFF, 0xFF,
  0xFF, 0xFF, 0xFF, 0xFF, 0xFF, 0xFF, 0xFF, 0xFF, 0xFF, 0xFF, 0xFF, 0xFF,
  0xFF, 0xFF, 26, 27, 28, 29, 30, 31, 0xFF, 0xFF, 0xFF, 0xFF,
  0xFF, 0xFF, 0xFF, 0xFF, 0xFF, 0, 1, 2, 3, 4, 5, 6,
  7, 8, 9, 10, 11, 12, 13, 14, 15, 16, 17, 18,
  19, 20, 21, 22, 23, 24, 25, 0xFF, 0xFF, 0xFF, 0xFF, 0xFF,
  0xFF, 0, 1, 2, 3, 4, 5, 6, 7, 8, 9, 10,
  11, 12, 13, 14, 15, 16, 17, 18, 19, 20, 21, 22,
  23, 24, 25, 0xFF, 0xFF, 0xFF, 0xFF, 0xFF, 0xFF, 0xFF, 0xFF, 0xFF,
  0xFF, 0xFF, 0xFF, 0xFF, 0xFF, 0xFF, 0xFF, 0xFF, 0xFF, 0xFF, 0xFF, 0xFF,
  0xFF, 0xFF, 0xFF, 0xFF, 0xFF, 0xFF, 0xFF, 0xFF, 0xFF, 0xFF, 0xFF, 0xFF,
  0xFF, 0xFF, 0xFF, 0xFF, 0xFF, 0xFF, 0xFF, 0xFF, 0xFF, 0xFF, 0xFF, 0xFF,
  0xFF, 0xFF, 0xFF, 0xFF, 0xFF, 0xFF, 0xFF, 0xFF, 0xFF, 0xFF, 0xFF, 0xFF,
  0xFF, 0xFF, 0xFF, 0xFF, 0xFF, 0xFF, 0xFF, 0xFF, 0xFF, 0xFF, 0xFF, 0xFF,
  0xFF, 0xFF, 0xFF, 0xFF, 0xFF, 0xFF, 0xFF, 0xFF, 0xFF, 0xFF, 0xFF, 0xFF,
  0xFF, 0xFF, 0xFF, 0xFF, 0xFF, 0xFF, 0xFF, 0xFF, 0xFF, 0xFF, 0xFF, 0xFF,
  0xFF, 0xFF, 0xFF, 0xFF, 0xFF, 0xFF, 0xFF, 0xFF, 0xFF, 0xFF, 0xFF, 0xFF,
  0xFF, 0xFF, 0xFF, 0xFF, 0xFF, 0xFF, 0xFF, 0xFF, 0xFF, 0xFF, 0xFF, 0xFF,
  0xFF, 0xFF, 0xFF, 0xFF, 0xFF, 0xFF, 0xFF, 0xFF, 0xFF, 0xFF, 0xFF, 0xFF,
  0xFF, 0xFF, 0xFF, 0xFF]

/-- `BASE32_DECODE_RAW`, src/base32.c:33-55 (256 entries, copied mechanically). -/
def BASE32_DECODE_RAW : List Byte := [
  0, 1, 2, 3, 4, 5, 6, 7, 8, 9, 10, 11,
  12, 13, 14, 15, 16, 17, 18, 19, 20, 21, 22, 23,
  24, 25, 26, 27, 28, 29, 30, 31, 0xFF, 0xFF, 0xFF, 0xFF,
  0xFF, 0xFF, 0xFF, 0xFF, 0xFF, 0xFF, 0xFF, 0xFF, 0xFF, 0xFF, 0xFF, 0xFF,
  0xFF, 0xFF, 0xFF, 0xFF, 0xFF, 0xFF, 0xFF, 0xFF, 0xFF, 0xFF, 0xFF, 0xFF,
  0xFF, 0xFF, 0xFF, 0xFF, 0xFF, 0xFF, 0xFF, 0xFF, 0xFF, 0xFF, 0xFF, 0xFF,
  0xFF, 0xFF, 0xFF, 0xFF, 0xFF, 0xFF, 0xFF, 0xFF, 0xFF, 0xFF, 0xFF, 0xFF,
  0xFF, 0xFF, 0xFF, 0xFF, 0xFF, 0xFF, 0xFF, 0xFF, 0xFF, 0xFF, 0xFF, 0xFF,
  0xFF, 0xFF, 0xFF, 0xFF, 0xFF, 0xFF, 0xFF, 0xFF, 0xFF, 0xFF, 0xFF, 0xFF,
  0xFF, 0xFF, 0xFF, 0xFF, 0xFF, 0xFF, 0xFF, 0xFF, 0xFF, 0xFF, 0xFF, 0xFF,
  0xFF, 0xFF, 0xFF, 0xFF, 0xFF, 0xFF, 0xFF, 0xFF, 0xFF, 0xFF, 0xFF, 0xFF,
  0xFF, 0xFF, 0xFF, 0xFF, 0xFF, 0xFF, 0xFF, 0xFF, 0xFF, 0xFF, 0xFF, 0xFF,
  0xFF, 0xFF, 0xFF, 0xFF, 0xFF, 0xFF, 0xFF, 0xFF, 0xFF, 0xFF, 0xFF, 0xFF,
  0xFF, 0xFF, 0xFF, 0xFF, 0xFF, 0xFF, 0xFF, 0xFF, 0xFF, 0xFF, 0xFF, 0xFF,
  0xFF, 0xFF, 0xFF, 0xFF, 0xFF, 0xFF, 0xFF, 0xFF, 0xFF, 0xFF, 0xFF, 0xFF,
  0xFF, 0xFF, 0xFF, 0xFF, 0xFF, 0xFF, 0xFF, 0xFF, 0xFF, 0xFF, 0xFF, 0xFF,
  0xFF, 0xFF, 0xFF, 0xFF, 0xFF, 0xFF, 0xFF, 0xFF, 0xFF, 0xFF, 0xFF, 0xFF,
  0xFF, 0xFF, 0xFF, 0xFF, 0xFF, 0xFF, 0xFF, 0xFF, 0xFF, 0xFF, 0xFF, 0xFF,
  0xFF, 0xFF, 0xFF, 0xFF, 0xFF, 0xFF, 0xFF, 0xFF, 0xFF, 0xFF, 0xFF, 0xFF,
  0xFF, 0xFF, 0xFF, 0xFF, 0xFF, 0xFF, 0xFF, 0xFF, 0xFF, 0xFF, 0xFF, 0xFF,
  0xFF, 0xFF, 0xFF, 0xFF, 0xFF, 0xFF, 0xFF, 0xFF, 0xFF, 0xFF, 0xFF, 0xFF,
  0xFF, 0xFF, 0xFF, 0xFF]

/-- `TAIL_TO_BYTES`, src/base32.c:63-63 (8 entries, copied mechanically). -/
def TAIL_TO_BYTES : List Nat := [
  0, 0, 1, 0, 2, 3, 0, 4]

/-- `fingera_to_base32_length`, include/fingera_libc/base32.h:23-25. -/
def toBase32Length (bufSize : Nat) : Nat := (bufSize + 4) / 5 * 8

/-- src/base32.c:70. -/
def encodeStr (raw : Bool) : List Byte := if raw then BASE32_ENCODE_RAW else BASE32_ENCODE

/-- Loop body, src/base32.c:73-93 (`input = buf + 5*j`, `out = out0 + 8*j`). -/
def encBody (raw : Bool) (buf : List Byte) (j : Nat) (out : List Byte) : Res (List Byte) := do
  let i0 ← rd buf (5*j)
  let i1 ← rd buf (5*j+1)
  let i2 ← rd buf (5*j+2)
  let i3 ← rd buf (5*j+3)
  let i4 ← rd buf (5*j+4)
  let byte1 := i0 >>> 3
  let byte2 := ((i0 &&& 7#8) <<< 2) ||| (i1 >>> 6)
  let byte3 := (i1 >>> 1) &&& 0x1F#8
  let byte4 := ((i1 &&& 1#8) <<< 4) ||| (i2 >>> 4)
  let byte5 := ((i2 &&& 0xF#8) <<< 1) ||| (i3 >>> 7)
  let byte6 := (i3 >>> 2) &&& 0x1F#8
  let byte7 := ((i3 &&& 3#8) <<< 3) ||| ((i4 >>> 5) &&& 7#8)
  let byte8 := i4 &&& 0x1F#8
  wrs out (8*j) (← lookups (encodeStr raw) [byte1, byte2, byte3, byte4, byte5, byte6, byte7, byte8])

/-- One `case` of the tail: digits, then padding unless raw; returns the increment of `size`. -/
def putTail (raw : Bool) (out : List Byte) (p : Nat) (bytes : List Byte) : Res (List Byte × Nat) := do
  let out ← wrs out p (← lookups (encodeStr raw) bytes)
  if !raw then
    let out ← wrs out (p + bytes.length) (List.replicate (8 - bytes.length) (chr '='))
    pure (out, 8)
  else pure (out, bytes.length)

/-- The `switch (tail_len)`, src/base32.c:95-175; `n` is the number of complete groups.  Returns the
output object and the increment of `size` (8 with padding, otherwise the number of digits). -/
def encTail (raw : Bool) (buf : List Byte) (n tailLen : Nat) (out : List Byte) :
    Res (List Byte × Nat) := do
  if tailLen = 1 then
    let i0 ← rd buf (5*n)
    let byte1 := i0 >>> 3
    let byte2 := (i0 &&& 7#8) <<< 2
    putTail raw out (8*n) [byte1, byte2]
  else if tailLen = 2 then
    let i0 ← rd buf (5*n)
    let i1 ← rd buf (5*n+1)
    let byte1 := i0 >>> 3
    let byte2 := ((i0 &&& 7#8) <<< 2) ||| (i1 >>> 6)
    let byte3 := (i1 >>> 1) &&& 0x1F#8
    let byte4 := (i1 &&& 1#8) <<< 4
    putTail raw out (8*n) [byte1, byte2, byte3, byte4]
  else if tailLen = 3 then
    let i0 ← rd buf (5*n)
    let i1 ← rd buf (5*n+1)
    let i2 ← rd buf (5*n+2)
    let byte1 := i0 >>> 3
    let byte2 := ((i0 &&& 7#8) <<< 2) ||| (i1 >>> 6)
    let byte3 := (i1 >>> 1) &&& 0x1F#8
    let byte4 := ((i1 &&& 1#8) <<< 4) ||| (i2 >>> 4)
    let byte5 := (i2 &&& 0xF#8) <<< 1
    putTail raw out (8*n) [byte1, byte2, byte3, byte4, byte5]
  else if tailLen = 4 then
    let i0 ← rd buf (5*n)
    let i1 ← rd buf (5*n+1)
    let i2 ← rd buf (5*n+2)
    let i3 ← rd buf (5*n+3)
    let byte1 := i0 >>> 3
    let byte2 := ((i0 &&& 7#8) <<< 2) ||| (i1 >>> 6)
    let byte3 := (i1 >>> 1) &&& 0x1F#8
    let byte4 := ((i1 &&& 1#8) <<< 4) ||| (i2 >>> 4)
    let byte5 := ((i2 &&& 0xF#8) <<< 1) ||| (i3 >>> 7)
    let byte6 := (i3 >>> 2) &&& 0x1F#8
    let byte7 := (i3 &&& 3#8) <<< 3
    putTail raw out (8*n) [byte1, byte2, byte3, byte4, byte5, byte6, byte7]
  else pure (out, 0)

/-- `_fingera_to_base32`, src/base32.c:65-177. Returns the output object and `size`. -/
def toBase32Impl (buf : List Byte) (bufSize : Nat) (out : List Byte) (raw : Bool) :
    Res (List Byte × Nat) := do
  let out ← forLoop (encBody raw buf) 0 (bufSize / 5) out
  let (out, inc) ← encTail raw buf (bufSize / 5) (bufSize % 5) out
  pure (out, bufSize / 5 * 8 + inc)

/-- `fingera_to_base32`, src/base32.c:179-181. -/
def toBase32 (buf : List Byte) (bufSize : Nat) (out : List Byte) : Res (List Byte) := do
  let (out, _) ← toBase32Impl buf bufSize out false
  pure out

/-- `fingera_to_base32_raw`, src/base32.c:183-185. -/
def toBase32Raw (buf : List Byte) (bufSize : Nat) (out : List Byte) : Res (List Byte × Nat) :=
  toBase32Impl buf bufSize out true

/-- `base32_strlen`, src/base32.c:187-191. -/
def strlen (str : List Byte) (strLen : Nat) : Res Nat := do
  match ← strchr str (chr '=') with
  | none => pure strLen
  | some e => pure e

/-- `fingera_from_base32_raw_length`, src/base32.c:199-202. -/
def fromBase32RawLength (newLen : Nat) : Res Nat := do
  pure (newLen / 8 * 5 + (← rd TAIL_TO_BYTES (newLen % 8)))

/-- `fingera_from_base32_length`, src/base32.c:193-197. -/
def fromBase32Length (str : List Byte) (strLen : Nat) : Res Nat := do
  let newLen ← strlen str strLen
  pure (newLen / 8 * 5 + (← rd TAIL_TO_BYTES (newLen % 8)))

/-- src/base32.c:211. -/
def decodeStr (raw : Bool) : List Byte := if raw then BASE32_DECODE_RAW else BASE32_DECODE

/-- `decode_string[str[i]]` with `char str[]`, e.g. src/base32.c:213: where plain `char` is signed
(`cs`), a byte of 0x80 or more is a negative index, outside the table. -/
def decAt (cs raw : Bool) (str : List Byte) (i : Nat) : Res Byte := do
  let c ← rd str i
  if cs && c.toNat ≥ 128 then .ub else rd (decodeStr raw) c.toNat

/-- Loop body, src/base32.c:212-233. -/
def decBody (cs raw : Bool) (str : List Byte) (i : Nat) (buf : List Byte) :
    Res (Step (List Byte) (List Byte × Nat)) := do
  let byte1 ← decAt cs raw str (i*8)
  let byte2 ← decAt cs raw str (i*8+1)
  let byte3 ← decAt cs raw str (i*8+2)
  let byte4 ← decAt cs raw str (i*8+3)
  let byte5 ← decAt cs raw str (i*8+4)
  let byte6 ← decAt cs raw str (i*8+5)
  let byte7 ← decAt cs raw str (i*8+6)
  let byte8 ← decAt cs raw str (i*8+7)
  if byte1 = 0xFF#8 ∨ byte2 = 0xFF#8 ∨ byte3 = 0xFF#8 ∨ byte4 = 0xFF#8 ∨
     byte5 = 0xFF#8 ∨ byte6 = 0xFF#8 ∨ byte7 = 0xFF#8 ∨ byte8 = 0xFF#8 then
    pure (.stop (buf, 5*i))
  else
    let buf ← wrs buf (5*i)
      [(byte1 <<< 3) ||| (byte2 >>> 2),
       (byte2 <<< 6) ||| (byte3 <<< 1) ||| (byte4 >>> 4),
       (byte4 <<< 4) ||| (byte5 >>> 1),
       (byte5 <<< 7) ||| (byte6 <<< 2) ||| (byte7 >>> 3),
       (byte7 <<< 5) ||| byte8]
    pure (.next buf)

/-- Tail, src/base32.c:234-253; `n = blocks`, `tail_str = str + 8*n`, `out = buf + 5*n`. -/
def decTail (cs raw : Bool) (str : List Byte) (n tail : Nat) (buf : List Byte) :
    Res (List Byte × Nat) := do
  let tailBytes ← rd TAIL_TO_BYTES tail
  if tailBytes > 0 then
    let byte1 ← decAt cs raw str (n*8)
    let byte2 ← decAt cs raw str (n*8+1)
    let buf ← wr buf (5*n) ((byte1 <<< 3) ||| (byte2 >>> 2))
    if tailBytes > 1 then
      let byte3 ← decAt cs raw str (n*8+2)
      let byte4 ← decAt cs raw str (n*8+3)
      let buf ← wr buf (5*n+1) ((byte2 <<< 6) ||| (byte3 <<< 1) ||| (byte4 >>> 4))
      if tailBytes > 2 then
        let byte5 ← decAt cs raw str (n*8+4)
        let buf ← wr buf (5*n+2) ((byte4 <<< 4) ||| (byte5 >>> 1))
        if tailBytes > 3 then
          let byte6 ← decAt cs raw str (n*8+5)
          let byte7 ← decAt cs raw str (n*8+6)
          let buf ← wr buf (5*n+3) ((byte5 <<< 7) ||| (byte6 <<< 2) ||| (byte7 >>> 3))
          pure (buf, 5*n+4)
        else pure (buf, 5*n+3)
      else pure (buf, 5*n+2)
    else pure (buf, 5*n+1)
  else pure (buf, 5*n)

/-- `_fingera_from_base32`, src/base32.c:204-254. -/
def fromBase32Impl (cs : Bool) (str : List Byte) (strLen : Nat) (buf : List Byte) (raw : Bool) :
    Res (List Byte × Nat) := do
  let newLen ← strlen str strLen
  match ← forLoopB (decBody cs raw str) 0 (newLen / 8) buf with
  | .stop r => pure r
  | .next buf => decTail cs raw str (newLen / 8) (newLen % 8) buf

/-- `fingera_from_base32`, src/base32.c:256-258.  `cs`: plain `char` is signed. -/
def fromBase32 (cs : Bool) (str : List Byte) (strLen : Nat) (buf : List Byte) :
    Res (List Byte × Nat) := fromBase32Impl cs str strLen buf false

/-- `fingera_from_base32_raw`, src/base32.c:260-262. -/
def fromBase32Raw (cs : Bool) (str : List Byte) (strLen : Nat) (buf : List Byte) :
    Res (List Byte × Nat) := fromBase32Impl cs str strLen buf true

end Base32
