import Verif.Model.Basic
/-! Model of `src/compress_integer.c`. -/
namespace CompressInteger

/-- The `for (;;)` loop, src/compress_integer.c:10-15.  Recursion is on a fuel argument that starts
at 11 (line 6: `uint8_t tmp[10]`, so an eleventh write is already undefined behaviour and running
out of fuel is reported as such). Returns `len` and `tmp`. -/
def encLoop : Nat → U64 → Nat → List Byte → Res (Nat × List Byte)
  | 0, _, _, _ => .ub
  | fuel+1, value, len, tmp => do
    let tmp ← wr tmp len (((value &&& 0x7F#64) ||| (if len ≠ 0 then 0x80#64 else 0x00#64)).setWidth 8)
    if value ≤ 0x7F#64 then pure (len, tmp)
    else encLoop fuel ((value >>> 7) - 1#64) (len+1) tmp

/-- The `do … while (len--)` loop, src/compress_integer.c:17-19: `*out++ = tmp[len]`. -/
def copyBody (tmp : List Byte) (len : Nat) (j : Nat) (out : List Byte) : Res (List Byte) := do
  let b ← rd tmp (len - j)
  wr out j b

/-- `fingera_encode_varint`, src/compress_integer.c:5-22.  `tmp0` is the indeterminate initial
content of the 10-byte temporary. Returns the output object and the return value. -/
def encodeVarint (tmp0 : List Byte) (value : U64) (buf : List Byte) : Res (List Byte × Nat) := do
  let (len, tmp) ← encLoop 11 value 0 tmp0
  let out ← forLoop (copyBody tmp len) 0 (len+1) buf
  pure (out, len+1)

/-- Loop body, src/compress_integer.c:28-36. State: `*out`. -/
def decBody (buf : List Byte) (i : Nat) (out : U64) : Res (Step U64 (U64 × Nat)) := do
  let byte ← rd buf i
  let out := (out <<< 7) ||| (byte &&& 0x7F#8).setWidth 64
  if byte &&& 0x80#8 ≠ 0#8 then pure (.next (out + 1#64))
  else pure (.stop (out, i+1))

/-- `fingera_decode_varint`, src/compress_integer.c:24-38. Returns `*out` and the return value. -/
def decodeVarint (buf : List Byte) (size : Nat) : Res (U64 × Nat) := do
  let size := if size > 10 then 10 else size
  match ← forLoopB (decBody buf) 0 size 0#64 with
  | .stop r => pure r
  | .next out => pure (out, 0)

/-- `llabs`, C11 7.22.6.1: undefined when the result cannot be represented (INT64_MIN). -/
def llabs (value : BitVec 64) : Res (BitVec 64) :=
  if value = BitVec.intMin 64 then .ub
  else if value.slt 0#64 then .ok (-value) else .ok value

/-- `fingera_encode_zigzag`, src/compress_integer.c:40-46. -/
def encodeZigzag (tmp0 : List Byte) (value : BitVec 64) (buf : List Byte) : Res (List Byte × Nat) := do
  let uvalue ← llabs value
  let sign := if value.slt 0#64 then 1#64 else 0#64
  encodeVarint tmp0 ((uvalue <<< 1) ||| sign) buf

/-- `fingera_decode_zigzag`, src/compress_integer.c:48-62.  `out0` is the previous content of `*out`,
left alone on failure. (`uvalue >> 1` is below 2^63, so the negation never overflows.) -/
def decodeZigzag (buf : List Byte) (size : Nat) (out0 : BitVec 64) : Res (BitVec 64 × Nat) := do
  let (uvalue, len) ← decodeVarint buf size
  if len > 0 then
    let sign := uvalue &&& 1#64
    let uvalue := uvalue >>> 1
    if sign ≠ 0#64 then pure (-uvalue, len) else pure (uvalue, len)
  else pure (out0, len)

end CompressInteger
