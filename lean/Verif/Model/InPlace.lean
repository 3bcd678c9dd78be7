import Verif.Model.Hex
import Verif.Model.Base64
import Verif.Model.Base32
/-!
The decoders of `src/hex.c`, `src/base64.c` and `src/base32.c` called with a text and an output buffer that lie in the same memory
object: the text begins at offset `a` of the object, the output at offset `b`.  The statements are those of the models in `Model/Hex`,
`Model/Base64` and `Model/Base32`, in the order of the C text; every read and every write goes to the one object `mem`, so a read sees
what was written before it.
-/
namespace InPlace

/-- Loop body of `fingera_from_hex`, src/hex.c:52-57.  State: the object and `out - buf`. -/
def hexBody (a b j : Nat) (s : List Byte × Nat) : Res (Step (List Byte × Nat) (List Byte × Nat)) := do
  let high ← rd Hex.HEX_MAP (← rd s.1 (a + 2*j)).toNat
  let low ← rd Hex.HEX_MAP (← rd s.1 (a + (2*j+1))).toNat
  if high = 0xFF ∨ low = 0xFF then pure (.stop s)
  else do
    let mem ← wr s.1 (b + s.2) ((high <<< 4) ||| low)
    pure (.next (mem, s.2 + 1))

/-- `fingera_from_hex(obj + a, strLen, obj + b)`, src/hex.c:48-59. -/
def fromHex (mem : List Byte) (a strLen b : Nat) : Res (List Byte × Nat) := do
  match ← forLoopB (ρ := List Byte × Nat) (hexBody a b) 0 (strLen / 2) (mem, 0) with
  | .next s => pure s
  | .stop s => pure s

/-- Loop body of `_fingera_from_base64`, src/base64.c:128-145. -/
def b64Body (url : Bool) (a b j : Nat) (mem : List Byte) : Res (Step (List Byte) (List Byte × Nat)) := do
  let byte1 ← rd (Base64.decodeStr url) (← rd mem (a + 4*j)).toNat
  let byte2 ← rd (Base64.decodeStr url) (← rd mem (a + (4*j+1))).toNat
  let byte3 ← rd (Base64.decodeStr url) (← rd mem (a + (4*j+2))).toNat
  let byte4 ← rd (Base64.decodeStr url) (← rd mem (a + (4*j+3))).toNat
  if byte1 = 0xFF ∨ byte2 = 0xFF ∨ byte3 = 0xFF ∨ byte4 = 0xFF then
    pure (.stop (mem, 3*j))
  else
    let mem ← wr mem (b + 3*j) ((byte1 <<< 2) ||| (byte2 >>> 4))
    let mem ← wr mem (b + (3*j+1)) ((byte2 <<< 4) ||| (byte3 >>> 2))
    let mem ← wr mem (b + (3*j+2)) ((byte3 <<< 6) ||| byte4)
    pure (.next mem)

/-- The `switch (tail_len)` of `_fingera_from_base64`, src/base64.c:147-168. -/
def b64Tail (url : Bool) (a b n tailLen : Nat) (mem : List Byte) : Res (List Byte × Nat) := do
  if tailLen = 2 then
    let byte1 ← rd (Base64.decodeStr url) (← rd mem (a + 4*n)).toNat
    let byte2 ← rd (Base64.decodeStr url) (← rd mem (a + (4*n+1))).toNat
    if byte1 = 0xFF ∨ byte2 = 0xFF then pure (mem, 3*n)
    else
      let mem ← wr mem (b + 3*n) ((byte1 <<< 2) ||| ((byte2 >>> 4) &&& 0x3))
      pure (mem, 3*n+1)
  else if tailLen = 3 then
    let byte1 ← rd (Base64.decodeStr url) (← rd mem (a + 4*n)).toNat
    let byte2 ← rd (Base64.decodeStr url) (← rd mem (a + (4*n+1))).toNat
    let byte3 ← rd (Base64.decodeStr url) (← rd mem (a + (4*n+2))).toNat
    if byte1 = 0xFF ∨ byte2 = 0xFF ∨ byte3 = 0xFF then pure (mem, 3*n)
    else
      let mem ← wr mem (b + 3*n) ((byte1 <<< 2) ||| ((byte2 >>> 4) &&& 0x3))
      let mem ← wr mem (b + (3*n+1)) ((byte2 <<< 4) ||| ((byte3 >>> 2) &&& 0xF))
      pure (mem, 3*n+2)
  else pure (mem, 3*n)

/-- `_fingera_from_base64`, src/base64.c:118-169. -/
def fromBase64Impl (mem : List Byte) (a strLen b : Nat) (url : Bool) : Res (List Byte × Nat) := do
  match ← forLoopB (b64Body url a b) 0 (strLen / 4) mem with
  | .stop r => pure r
  | .next mem => b64Tail url a b (strLen / 4) (strLen % 4) mem

/-- `fingera_from_base64(obj + a, strLen, obj + b)`, src/base64.c:171-177 (the `=` are looked at before anything is written). -/
def fromBase64 (mem : List Byte) (a strLen b : Nat) : Res (List Byte × Nat) := do
  let strLen ← Base64.stripLen (mem.drop a) strLen
  fromBase64Impl mem a strLen b false

/-- `fingera_from_base64_urlsafe(obj + a, strLen, obj + b)`, src/base64.c:179-181. -/
def fromBase64Urlsafe (mem : List Byte) (a strLen b : Nat) : Res (List Byte × Nat) := fromBase64Impl mem a strLen b true

/-- `decode_string[str[i]]`, e.g. src/base32.c:213, `str = obj + a`. -/
def decAt (cs raw : Bool) (mem : List Byte) (a i : Nat) : Res Byte := do
  let c ← rd mem (a + i)
  if cs && c.toNat ≥ 128 then .ub else rd (Base32.decodeStr raw) c.toNat

/-- Loop body of `_fingera_from_base32`, src/base32.c:212-233. -/
def b32Body (cs raw : Bool) (a b i : Nat) (mem : List Byte) : Res (Step (List Byte) (List Byte × Nat)) := do
  let byte1 ← decAt cs raw mem a (i*8)
  let byte2 ← decAt cs raw mem a (i*8+1)
  let byte3 ← decAt cs raw mem a (i*8+2)
  let byte4 ← decAt cs raw mem a (i*8+3)
  let byte5 ← decAt cs raw mem a (i*8+4)
  let byte6 ← decAt cs raw mem a (i*8+5)
  let byte7 ← decAt cs raw mem a (i*8+6)
  let byte8 ← decAt cs raw mem a (i*8+7)
  if byte1 = 0xFF#8 ∨ byte2 = 0xFF#8 ∨ byte3 = 0xFF#8 ∨ byte4 = 0xFF#8 ∨
     byte5 = 0xFF#8 ∨ byte6 = 0xFF#8 ∨ byte7 = 0xFF#8 ∨ byte8 = 0xFF#8 then
    pure (.stop (mem, 5*i))
  else
    let mem ← wrs mem (b + 5*i)
      [(byte1 <<< 3) ||| (byte2 >>> 2),
       (byte2 <<< 6) ||| (byte3 <<< 1) ||| (byte4 >>> 4),
       (byte4 <<< 4) ||| (byte5 >>> 1),
       (byte5 <<< 7) ||| (byte6 <<< 2) ||| (byte7 >>> 3),
       (byte7 <<< 5) ||| byte8]
    pure (.next mem)

/-- Tail of `_fingera_from_base32`, src/base32.c:234-253: here reads and writes alternate. -/
def b32Tail (cs raw : Bool) (a b n tail : Nat) (mem : List Byte) : Res (List Byte × Nat) := do
  let tailBytes ← rd Base32.TAIL_TO_BYTES tail
  if tailBytes > 0 then
    let byte1 ← decAt cs raw mem a (n*8)
    let byte2 ← decAt cs raw mem a (n*8+1)
    let mem ← wr mem (b + 5*n) ((byte1 <<< 3) ||| (byte2 >>> 2))
    if tailBytes > 1 then
      let byte3 ← decAt cs raw mem a (n*8+2)
      let byte4 ← decAt cs raw mem a (n*8+3)
      let mem ← wr mem (b + (5*n+1)) ((byte2 <<< 6) ||| (byte3 <<< 1) ||| (byte4 >>> 4))
      if tailBytes > 2 then
        let byte5 ← decAt cs raw mem a (n*8+4)
        let mem ← wr mem (b + (5*n+2)) ((byte4 <<< 4) ||| (byte5 >>> 1))
        if tailBytes > 3 then
          let byte6 ← decAt cs raw mem a (n*8+5)
          let byte7 ← decAt cs raw mem a (n*8+6)
          let mem ← wr mem (b + (5*n+3)) ((byte5 <<< 7) ||| (byte6 <<< 2) ||| (byte7 >>> 3))
          pure (mem, 5*n+4)
        else pure (mem, 5*n+3)
      else pure (mem, 5*n+2)
    else pure (mem, 5*n+1)
  else pure (mem, 5*n)

/-- `_fingera_from_base32`, src/base32.c:204-254 (`base32_strlen` runs before anything is written). -/
def fromBase32Impl (cs : Bool) (mem : List Byte) (a strLen b : Nat) (raw : Bool) : Res (List Byte × Nat) := do
  let newLen ← Base32.strlen (mem.drop a) strLen
  match ← forLoopB (b32Body cs raw a b) 0 (newLen / 8) mem with
  | .stop r => pure r
  | .next mem => b32Tail cs raw a b (newLen / 8) (newLen % 8) mem

/-- `fingera_from_base32(obj + a, strLen, obj + b)`, src/base32.c:256-258. -/
def fromBase32 (cs : Bool) (mem : List Byte) (a strLen b : Nat) : Res (List Byte × Nat) := fromBase32Impl cs mem a strLen b false

/-- `fingera_from_base32_raw(obj + a, size, obj + b)`, src/base32.c:260-262. -/
def fromBase32Raw (cs : Bool) (mem : List Byte) (a size b : Nat) : Res (List Byte × Nat) := fromBase32Impl cs mem a size b true

end InPlace
