import Verif.Model.Overlap
import Verif.Model.Bech32
/-!
Bech32 with the values and the text in one object `mem`: the argument begins at offset `a`, the result is written at offset `b`, the
human-readable part lies elsewhere.  The statements are those of `Verif.Model.Bech32`; every read sees what was written before it.
-/
namespace InPlace
open Bech32

/-- `fingera_bech32_encode(hrp, hrp_len, obj + a, b32_size, obj + b)`, src/btc/bech32.c:82-97. -/
def bech32Encode (hrp : List Byte) (hrpLen : Nat) (mem : List Byte) (a b32Size b : Nat) : Res (List Byte) := do
  let checksum ← createChecksum hrp hrpLen (mem.drop a) b32Size (List.replicate 6 0xAA#8)
  let mem ← Overlap.at_ b (fun result => memcpy result 0 hrp hrpLen) mem
  let mem ← wr mem (b + hrpLen) (chr '1')
  let mem ← forLoop (fun i mem => do
    let v ← rd mem (a + i)
    assertC (v.toNat < 32)
    wr mem (b + (hrpLen + 1 + i)) (← rd BECH32_ENCODE v.toNat)) 0 b32Size mem
  forLoop (fun i mem => do
    let v ← rd checksum i
    wr mem (b + (hrpLen + 1 + b32Size + i)) (← rd BECH32_ENCODE v.toNat)) 0 6 mem

/-- Loop body, src/btc/bech32.c:128-130: the text at `a`, its values to `b`. -/
def bech32Body (a b p i : Nat) (mem : List Byte) : Res (Step (List Byte) (List Byte)) := do
  let c ← rd mem (a + (p + i))
  let rev ← rd BECH32_DECODE c.toNat
  if rev = -1 then pure (.stop mem)
  else do
    let mem ← wr mem (b + i) (BitVec.ofInt 8 rev)
    pure (.next mem)

/-- src/btc/bech32.c:127-131: `false` means `return -4`. -/
def bech32Chars (mem : List Byte) (a b p n : Nat) : Res (List Byte × Bool) := do
  match ← forLoopB (bech32Body a b p) 0 n mem with
  | .stop mem => pure (mem, false)
  | .next mem => pure (mem, true)

/-- src/btc/bech32.c:122-140. -/
def bech32DecodeAt (mem : List Byte) (a strLen pos : Nat) (hrp : List Byte) (b : Nat) : Res DecodeResult := do
  let hrp ← forLoop (fun i hrp => do wr hrp i (toLower (← rd (mem.drop a) i))) 0 pos hrp
  let n ← untilPtr (pos + 1) (strLen - 6)
  let (mem, good) ← bech32Chars mem a b (pos + 1) n
  if !good then pure ⟨-4, hrp, pos, mem⟩
  else do
    let (checksum, good) ← decodeChars (mem.drop a) (strLen - 6) 6 (List.replicate 6 0xAA#8)
    if !good then pure ⟨-4, hrp, pos, mem⟩
    else do
      let v ← verifyChecksum hrp pos (mem.drop b) n checksum
      pure ⟨if v then (n : Int) else -5, hrp, pos, mem⟩

/-- `fingera_bech32_decode(obj + a, str_len, hrp, hrp_size, obj + b)`, src/btc/bech32.c:111-141; `b32` of the result is the object. -/
def bech32Decode (mem : List Byte) (a strLen : Nat) (hrp : List Byte) (hrpSize b : Nat) : Res DecodeResult := do
  if ← isIllegal (mem.drop a) strLen then pure ⟨-1, hrp, hrpSize, mem⟩
  else do
    match ← strrchr (mem.drop a) (chr '1') with
    | none => pure ⟨-2, hrp, hrpSize, mem⟩
    | some pos =>
      if strLen > 90 ∨ pos = 0 ∨ pos + 7 > strLen ∨ strLen ≤ 7 then pure ⟨-2, hrp, hrpSize, mem⟩
      else if hrpSize < pos then pure ⟨-3, hrp, hrpSize, mem⟩
      else bech32DecodeAt mem a strLen pos hrp b

end InPlace
