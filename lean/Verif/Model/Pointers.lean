import Verif.Model.Address
/-! `fingera_bech32_decode` and the address decoder under the strict rule of C for pointer arithmetic
(C11 6.5.6p8): forming a pointer beyond one past the end of its object is already undefined, whether or
not it is used.  The only pointer of the library's sources that can leave its object without being
dereferenced is `pos + 7` of src/btc/bech32.c:116. -/
namespace Pointers
open Bech32 Address

/-- Forming `base + k` for an object of `size` bytes at `base` (C11 6.5.6p8). -/
def form (k size : Nat) : Res Unit := if k ≤ size then .ok () else .ub

/-- `fingera_bech32_decode`, src/btc/bech32.c:111-141.  The operands of `||` of lines 116-117 are evaluated
from left to right, so `pos + 7` is formed only after `!pos || str_len > 90 || pos == str` was false. -/
def decode (str : List Byte) (strLen : Nat) (hrp : List Byte) (hrpSize : Nat) (b32 : List Byte) :
    Res DecodeResult := do
  if ← isIllegal str strLen then pure ⟨-1, hrp, hrpSize, b32⟩
  else do
    match ← strrchr str (chr '1') with
    | none => pure ⟨-2, hrp, hrpSize, b32⟩
    | some pos =>
      if strLen > 90 ∨ pos = 0 then pure ⟨-2, hrp, hrpSize, b32⟩
      else do
        form (pos + 7) str.length
        form strLen str.length
        if pos + 7 > strLen ∨ strLen ≤ 7 then pure ⟨-2, hrp, hrpSize, b32⟩
        else if hrpSize < pos then pure ⟨-3, hrp, hrpSize, b32⟩
        else decodeAt str strLen pos hrp b32

/-- `decode_bech32`, src/btc/address.c:95-140, with the decoder above. -/
def decodeBech32 (cs : Bool) (stack : List Byte) (str : List Byte) (strLen : Nat) (out : List Byte)
    (outSize : Nat) (param : ChainParameters) : Res Decoded := do
  let r ← decode str strLen (List.replicate 16 0xAA#8) 16 (buffer stack strLen)
  if r.ret < 1 ∨ r.hrpSize ≠ param.bech32HrpSize then pure ⟨.bad, out, outSize⟩
  else do
    let same ← memeq r.hrp param.bech32Hrp r.hrpSize
    if !same then pure ⟨.bad, out, outSize⟩
    else decodeWitness cs r.b32 r.ret.toNat out outSize

/-- `fingera_btc_address_decode`, src/btc/address.c:142-165, with the decoder above.  The other pointers
formed, `out + prefix_size` of lines 154 and 160, follow a check that `size` is at least `prefix_size`. -/
def addressDecode (host : Host) (cs : Bool) (stack : List Byte) (str : List Byte) (strLen : Nat)
    (out : List Byte) (outSize : Nat) (param : ChainParameters) : Res Decoded := do
  if outSize < Base58Check.fromBase58CheckLength strLen then pure ⟨.bad, out, outSize⟩
  else do
    let (out, size) ← Base58Check.fromBase58Check host cs str strLen out
    if size ≠ 0 then do
      let isPubkey ← hasPrefix out size param.prefixPubkeyAddress param.prefixPubkeyAddressSize
      if isPubkey then strip .pubkey out size param.prefixPubkeyAddressSize
      else do
        let isScript ← hasPrefix out size param.prefixScriptAddress param.prefixScriptAddressSize
        if isScript then strip .script out size param.prefixScriptAddressSize
        else decodeBech32 cs stack str strLen out outSize param
    else decodeBech32 cs stack str strLen out outSize param

end Pointers
