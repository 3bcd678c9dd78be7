import Verif.Model.Basic
/-! Model of `src/btc/bech32.c` and `include/fingera_libc/btc/bech32.h`.  Forming (not dereferencing)
the pointer `pos + 7` of line 116 is not counted as undefined behaviour. -/
namespace Bech32

/-- `fingera_bech32_encode_length`, include/fingera_libc/btc/bech32.h:25-28. -/
def encodeLength (hrpLen b32Size : Nat) : Nat := hrpLen + b32Size + 7

/-- src/btc/bech32.c:8 (33 bytes with the terminating NUL). -/
def BECH32_ENCODE : List Byte := cstr "qpzry9x8gf2tvdw0s3jn54khce6mua7l" ++ [0]

/-- `BECH32_DECODE`, src/btc/bech32.c:9-24 (256 entries, copied mechanically). -/
def BECH32_DECODE : List Int := [
  -1, -1, -1, -1, -1, -1, -1, -1, -1, -1, -1, -1, -1, -1, -1, -1, -1, -1, -1,
  -1, -1, -1, -1, -1, -1, -1, -1, -1, -1, -1, -1, -1, -1, -1, -1, -1, -1, -1,
  -1, -1, -1, -1, -1, -1, -1, -1, -1, -1, 15, -1, 10, 17, 21, 20, 26, 30, 7,
  5, -1, -1, -1, -1, -1, -1, -1, 29, -1, 24, 13, 25, 9, 8, 23, -1, 18, 22,
  31, 27, 19, -1, 1, 0, 3, 16, 11, 28, 12, 14, 6, 4, 2, -1, -1, -1, -1,
  -1, -1, 29, -1, 24, 13, 25, 9, 8, 23, -1, 18, 22, 31, 27, 19, -1, 1, 0,
  3, 16, 11, 28, 12, 14, 6, 4, 2, -1, -1, -1, -1, -1, -1, -1, -1, -1, -1,
  -1, -1, -1, -1, -1, -1, -1, -1, -1, -1, -1, -1, -1, -1, -1, -1, -1, -1, -1,
  -1, -1, -1, -1, -1, -1, -1, -1, -1, -1, -1, -1, -1, -1, -1, -1, -1, -1, -1,
  -1, -1, -1, -1, -1, -1, -1, -1, -1, -1, -1, -1, -1, -1, -1, -1, -1, -1, -1,
  -1, -1, -1, -1, -1, -1, -1, -1, -1, -1, -1, -1, -1, -1, -1, -1, -1, -1, -1,
  -1, -1, -1, -1, -1, -1, -1, -1, -1, -1, -1, -1, -1, -1, -1, -1, -1, -1, -1,
  -1, -1, -1, -1, -1, -1, -1, -1, -1, -1, -1, -1, -1, -1, -1, -1, -1, -1, -1,
  -1, -1, -1, -1, -1, -1, -1, -1, -1]

/-- `BECH32_POLY_TABLE`, src/btc/bech32.c:25-32 (32 entries, copied mechanically). -/
def BECH32_POLY_TABLE : List U32 := [
  0x00000000, 0x3b6a57b2, 0x26508e6d, 0x1d3ad9df, 0x1ea119fa, 0x25cb4e48,
  0x38f19797, 0x039bc025, 0x3d4233dd, 0x0628646f, 0x1b12bdb0, 0x2078ea02,
  0x23e32a27, 0x18897d95, 0x05b3a44a, 0x3ed9f3f8, 0x2a1462b3, 0x117e3501,
  0x0c44ecde, 0x372ebb6c, 0x34b57b49, 0x0fdf2cfb, 0x12e5f524, 0x298fa296,
  0x1756516e, 0x2c3c06dc, 0x3106df03, 0x0a6c88b1, 0x09f74894, 0x329d1f26,
  0x2fa7c6f9, 0x14cd914b]

/-- `poly_mod`, src/btc/bech32.c:34-36. -/
def polyMod (value : Byte) (c : U32) : Res U32 := do
  let t ← rd BECH32_POLY_TABLE (c >>> 25).toNat
  pure (((c &&& 0x1ffffff#32) <<< 5) ^^^ t ^^^ value.setWidth 32)

/-- One of the loops `for (i = 0; i < n; i++) mod = poly_mod(f(mem[i]), mod)`, e.g.
src/btc/bech32.c:41-43, 45-47, 49-51. -/
def modLoop (f : Byte → Byte) (mem : List Byte) (n : Nat) (mod : U32) : Res U32 :=
  forLoop (fun i mod => do polyMod (f (← rd mem i)) mod) 0 n mod

/-- The part common to `create_checksum` and `verify_checksum`, src/btc/bech32.c:40-51 and 64-75. -/
def modAll (hrp : List Byte) (hrpLen : Nat) (b32 : List Byte) (b32Size : Nat) : Res U32 := do
  let mod ← modLoop (fun c => c >>> 5) hrp hrpLen 1#32
  let mod ← polyMod 0#8 mod
  let mod ← modLoop (fun c => c &&& 0x1F#8) hrp hrpLen mod
  modLoop (fun c => c) b32 b32Size mod

/-- `create_checksum`, src/btc/bech32.c:38-60. -/
def createChecksum (hrp : List Byte) (hrpLen : Nat) (b32 : List Byte) (b32Size : Nat)
    (checksum : List Byte) : Res (List Byte) := do
  let mod ← modAll hrp hrpLen b32 b32Size
  let mod ← forLoop (fun _ mod => polyMod 0#8 mod) 0 6 mod
  let mod := mod ^^^ 1#32
  forLoop (fun i checksum => wr checksum i (((mod >>> (5 * (5 - i))) &&& 31#32).setWidth 8)) 0 6 checksum

/-- `verify_checksum`, src/btc/bech32.c:62-80. -/
def verifyChecksum (hrp : List Byte) (hrpLen : Nat) (b32 : List Byte) (b32Size : Nat)
    (checksum : List Byte) : Res Bool := do
  let mod ← modAll hrp hrpLen b32 b32Size
  let mod ← modLoop (fun c => c) checksum 6 mod
  pure (mod == 1#32)

/-- `fingera_bech32_encode`, src/btc/bech32.c:82-97. Returns the memory at `result`. -/
def encode (hrp : List Byte) (hrpLen : Nat) (b32 : List Byte) (b32Size : Nat) (result : List Byte) :
    Res (List Byte) := do
  let checksum ← createChecksum hrp hrpLen b32 b32Size (List.replicate 6 0xAA#8)
  let result ← memcpy result 0 hrp hrpLen
  let result ← wr result hrpLen (chr '1')
  let result ← forLoop (fun i result => do
    let v ← rd b32 i
    assertC (v.toNat < 32)
    wr result (hrpLen + 1 + i) (← rd BECH32_ENCODE v.toNat)) 0 b32Size result
  forLoop (fun i result => do
    let v ← rd checksum i
    wr result (hrpLen + 1 + b32Size + i) (← rd BECH32_ENCODE v.toNat)) 0 6 result

/-- Loop body, src/btc/bech32.c:102-105; the state is `(lower, upper)`. -/
def illegalBody (str : List Byte) (i : Nat) (lu : Bool × Bool) : Res (Step (Bool × Bool) Bool) := do
  let c ← rd str i
  if c.toNat ≥ 97 ∧ c.toNat ≤ 122 then pure (.next (true, lu.2))
  else if c.toNat ≥ 65 ∧ c.toNat ≤ 90 then pure (.next (lu.1, true))
  else if c.toNat < 33 ∨ c.toNat > 126 then pure (.stop true)
  else pure (.next lu)

/-- `is_illegal`, src/btc/bech32.c:99-109. -/
def isIllegal (str : List Byte) (size : Nat) : Res Bool := do
  match ← forLoopB (illegalBody str) 0 size (false, false) with
  | .stop r => pure r
  | .next (lower, upper) => pure (lower && upper)

/-- `isupper(c) ? tolower(c) : c` in the C locale, src/btc/bech32.c:123 (only reached for characters
33..126, so the argument of `isupper` is in range). -/
def toLower (c : Byte) : Byte := if 65 ≤ c.toNat ∧ c.toNat ≤ 90 then c + 32#8 else c

/-- Loop body, src/btc/bech32.c:128-130 / 134-136. -/
def decodeBody (str : List Byte) (p i : Nat) (out : List Byte) : Res (Step (List Byte) (List Byte)) := do
  let c ← rd str (p + i)
  let rev ← rd BECH32_DECODE c.toNat
  if rev = -1 then pure (.stop out)
  else do
    let out ← wr out i (BitVec.ofInt 8 rev)
    pure (.next out)

/-- One loop of src/btc/bech32.c:127-131 / 133-137: translate `n` characters from `str + p` to `out`;
`false` means an illegal character was met (`return -4`). -/
def decodeChars (str : List Byte) (p n : Nat) (out : List Byte) : Res (List Byte × Bool) := do
  match ← forLoopB (decodeBody str p) 0 n out with
  | .stop out => pure (out, false)
  | .next out => pure (out, true)

/-- What `fingera_bech32_decode` leaves behind: the return value, the object at `hrp`, `*hrp_size`
and the object at `b32`. -/
structure DecodeResult where
  ret : Int
  hrp : List Byte
  hrpSize : Nat
  b32 : List Byte
deriving DecidableEq, Repr

/-- src/btc/bech32.c:122-140, after the separator has been found at offset `pos`. -/
def decodeAt (str : List Byte) (strLen pos : Nat) (hrp b32 : List Byte) : Res DecodeResult := do
  let hrp ← forLoop (fun i hrp => do wr hrp i (toLower (← rd str i))) 0 pos hrp
  let n ← untilPtr (pos + 1) (strLen - 6)
  let (b32, good) ← decodeChars str (pos + 1) n b32
  if !good then pure ⟨-4, hrp, pos, b32⟩
  else do
    let (checksum, good) ← decodeChars str (strLen - 6) 6 (List.replicate 6 0xAA#8)
    if !good then pure ⟨-4, hrp, pos, b32⟩
    else do
      let v ← verifyChecksum hrp pos b32 n checksum
      pure ⟨if v then (n : Int) else -5, hrp, pos, b32⟩

/-- `fingera_bech32_decode`, src/btc/bech32.c:111-141. -/
def decode (str : List Byte) (strLen : Nat) (hrp : List Byte) (hrpSize : Nat) (b32 : List Byte) :
    Res DecodeResult := do
  if ← isIllegal str strLen then pure ⟨-1, hrp, hrpSize, b32⟩
  else do
    match ← strrchr str (chr '1') with
    | none => pure ⟨-2, hrp, hrpSize, b32⟩
    | some pos =>
      if strLen > 90 ∨ pos = 0 ∨ pos + 7 > strLen ∨ strLen ≤ 7 then pure ⟨-2, hrp, hrpSize, b32⟩
      else if hrpSize < pos then pure ⟨-3, hrp, hrpSize, b32⟩
      else decodeAt str strLen pos hrp b32

end Bech32
