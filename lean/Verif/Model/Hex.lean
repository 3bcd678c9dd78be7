import Verif.Model.Basic
/-! Model of `src/hex.c` and the length functions of `include/fingera_libc/hex.h`. -/
namespace Hex

/-- `HEX_STRING_LOWER`, src/hex.c:4-6 (16 entries, copied mechanically). -/
def HEX_STRING_LOWER : List Byte := [
  chr '0', chr '1', chr '2', chr '3', chr '4', chr '5', chr '6', chr '7', chr '8', chr '9', chr 'a', chr 'b',
  chr 'c', chr 'd', chr 'e', chr 'f']

/-- `HEX_STRING_UPPER`, src/hex.c:7-9 (16 entries, copied mechanically). -/
def HEX_STRING_UPPER : List Byte := [
  chr '0', chr '1', chr '2', chr '3', chr '4', chr '5', chr '6', chr '7', chr '8', chr '9', chr 'A', chr 'B',
  chr 'C', chr 'D', chr 'E', chr 'F']

/-- `HEX_MAP`, src/hex.c:23-46 (256 entries, copied mechanically). -/
def HEX_MAP : List Byte := [
  0xff, 0xff, 0xff, 0xff, 0xff, 0xff, 0xff, 0xff, 0xff, 0xff, 0xff, 0xff,
  0xff, 0xff, 0xff, 0xff, 0xff, 0xff, 0xff, 0xff, 0xff, 0xff, 0xff, 0xff,
  0xff, 0xff, 0xff, 0xff, 0xff, 0xff, 0xff, 0xff, 0xff, 0xff, 0xff, 0xff,
  0xff, 0xff, 0xff, 0xff, 0xff, 0xff, 0xff, 0xff, 0xff, 0xff, 0xff, 0xff,
  0x00, 0x01, 0x02, 0x03, 0x04, 0x05, 0x06, 0x07, 0x08, 0x09, 0xff, 0xff,
  0xff, 0xff, 0xff, 0xff, 0xff, 0x0a, 0x0b, 0x0c, 0x0d, 0x0e, 0x0f, 0xff,
  0xff, 0xff, 0xff, 0xff, 0xff, 0xff, 0xff, 0xff, 0xff, 0xff, 0xff, 0xff,
  0xff, 0xff, 0xff, 0xff, 0xff, 0xff, 0xff, 0xff, 0xff, 0xff, 0xff, 0xff,
  0xff, 0x0a, 0x0b, 0x0c, 0x0d, 0x0e, 0x0f, 0xff, 0xff, 0xff, 0xff, 0xff,
  0xff, 0xff, 0xff, 0xff, 0xff, 0xff, 0xff, 0xff, 0xff, 0xff, 0xff, 0xff,
  0xff, 0xff, 0xff, 0xff, 0xff, 0xff, 0xff, 0xff, 0xff, 0xff, 0xff, 0xff,
  0xff, 0xff, 0xff, 0xff, 0xff, 0xff, 0xff, 0xff, 0xff, 0xff, 0xff, 0xff,
  0xff, 0xff, 0xff, 0xff, 0xff, 0xff, 0xff, 0xff, 0xff, 0xff, 0xff, 0xff,
  0xff, 0xff, 0xff, 0xff, 0xff, 0xff, 0xff, 0xff, 0xff, 0xff, 0xff, 0xff,
  0xff, 0xff, 0xff, 0xff, 0xff, 0xff, 0xff, 0xff, 0xff, 0xff, 0xff, 0xff,
  0xff, 0xff, 0xff, 0xff, 0xff, 0xff, 0xff, 0xff, 0xff, 0xff, 0xff, 0xff,
  0xff, 0xff, 0xff, 0xff, 0xff, 0xff, 0xff, 0xff, 0xff, 0xff, 0xff, 0xff,
  0xff, 0xff, 0xff, 0xff, 0xff, 0xff, 0xff, 0xff, 0xff, 0xff, 0xff, 0xff,
  0xff, 0xff, 0xff, 0xff, 0xff, 0xff, 0xff, 0xff, 0xff, 0xff, 0xff, 0xff,
  0xff, 0xff, 0xff, 0xff, 0xff, 0xff, 0xff, 0xff, 0xff, 0xff, 0xff, 0xff,
  0xff, 0xff, 0xff, 0xff, 0xff, 0xff, 0xff, 0xff, 0xff, 0xff, 0xff, 0xff,
  0xff, 0xff, 0xff, 0xff]

/-- `fingera_to_hex_length`, include/fingera_libc/hex.h:23-25. -/
def toHexLength (bufSize : Nat) : Nat := bufSize * 2

/-- `fingera_from_hex_length`, include/fingera_libc/hex.h:44-46. -/
def fromHexLength (strLength : Nat) : Nat := (strLength + 1) / 2

/-- Choice of digit string, src/hex.c:14 and 64. -/
def hexStr (upper : Bool) : List Byte := if upper then HEX_STRING_UPPER else HEX_STRING_LOWER

/-- `fingera_to_hex`, src/hex.c:11-21.  `str` is the output object, the advancing pointer `str`
is the second component of the loop state. Returns the output object after the call. -/
def toHex (buf : List Byte) (bufSize : Nat) (str : List Byte) (upper : Bool) :
    Res (List Byte) := do
  let (str, _) ← forLoop (fun i (s : List Byte × Nat) => do
      let byte ← rd buf i
      let str ← wr s.1 s.2 (← rd (hexStr upper) (byte >>> 4).toNat)
      let str ← wr str (s.2 + 1) (← rd (hexStr upper) (byte &&& 0xF).toNat)
      pure (str, s.2 + 2)) 0 bufSize (str, 0)
  pure str

/-- `fingera_from_hex`, src/hex.c:48-59.  `i` of the C loop is `2*j`; `str_len &= ~1` is
`strLen / 2 * 2`, hence `strLen / 2` iterations.  State: output object and `out - buf`.
Returns the output object and the return value. -/
def fromHex (str : List Byte) (strLen : Nat) (buf : List Byte) : Res (List Byte × Nat) := do
  match ← forLoopB (ρ := List Byte × Nat) (fun j (s : List Byte × Nat) => do
      let high ← rd HEX_MAP (← rd str (2*j)).toNat
      let low ← rd HEX_MAP (← rd str (2*j+1)).toNat
      if high = 0xFF ∨ low = 0xFF then pure (.stop s)
      else do
        let buf ← wr s.1 s.2 ((high <<< 4) ||| low)
        pure (.next (buf, s.2 + 1))) 0 (strLen / 2) (buf, 0) with
  | .next s => pure s
  | .stop s => pure s

/-- State of `fingera_hex_dump`: the 1024-byte cache, its fill level, what went to stdout. -/
structure Dump where
  cache : List Byte
  len : Nat
  stdout : List Byte

/-- Macro `WRITE_CACHE__`, src/hex.c:68. -/
def Dump.put (d : Dump) (c : Byte) : Res Dump := do
  let cache ← wr d.cache d.len c
  pure { d with cache := cache, len := d.len + 1 }

/-- `if (cond) WRITE_CACHE__(c);`. -/
def Dump.putIf (d : Dump) (cond : Bool) (c : Byte) : Res Dump :=
  if cond then d.put c else pure d

/-- `fwrite(str_cache, str_cache_len, 1, stdout)`, src/hex.c:84 and 92 (assumed to succeed). -/
def Dump.flush (d : Dump) : Res Dump :=
  if d.len ≤ d.cache.length then pure { d with stdout := d.stdout ++ d.cache.take d.len }
  else .ub

/-- Loop body of `fingera_hex_dump`, src/hex.c:70-87. -/
def dumpBody (buf : List Byte) (upper : Bool) (i : Nat) (d : Dump) : Res Dump := do
  let byte ← rd buf i
  let d ← d.putIf (i ≠ 0 && i % 4 = 0) (chr ' ')
  let d ← d.putIf (i ≠ 0 && i % 8 = 0) (chr ' ')
  let d ← d.putIf (i ≠ 0 && i % 16 = 0) (chr ' ')
  let d ← d.putIf (i ≠ 0 && i % 32 = 0) (chr '\n')
  let d ← d.put (← rd (hexStr upper) (byte >>> 4).toNat)
  let d ← d.put (← rd (hexStr upper) (byte &&& 0xF).toNat)
  if d.len > 1000 then do
    let d ← d.flush
    pure { d with len := 0 }
  else pure d

/-- `fingera_hex_dump`, src/hex.c:61-94.  `cache0` is the (uninitialised) content of `str_cache`,
1024 bytes.  Returns what is written to stdout. -/
def hexDump (cache0 : List Byte) (buf : List Byte) (bufSize : Nat) (upper : Bool) :
    Res (List Byte) := do
  let d ← forLoop (dumpBody buf upper) 0 bufSize { cache := cache0, len := 0, stdout := [] }
  let d ← d.put (chr '\n')
  let d ← if d.len > 0 then d.flush else pure d
  pure d.stdout

end Hex
