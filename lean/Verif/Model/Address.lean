import Verif.Model.ChainParameters
import Verif.Model.Base32
import Verif.Model.Bech32
import Verif.Model.Base58Check
/-! Model of `src/btc/address.c`. -/
namespace Address

/-- `fingera_btc_address`, include/fingera_libc/btc/address.h:18-25. -/
inductive Kind where
  | bad | pubkey | script | witnessV0Keyhash | witnessV0Scripthash | witnessUnknown
deriving DecidableEq, Repr

/-- `fingera_to_address_pubkey`, src/btc/address.c:10-20. Encoders return the memory at `out` and the
return value. -/
def toAddressPubkey (host : Host) (keyId : List Byte) (keyIdSize : Nat) (out : List Byte) (outSize : Nat)
    (param : ChainParameters) : Res (List Byte × Nat) :=
  if outSize < Base58Check.toBase58CheckLength keyIdSize param.prefixPubkeyAddressSize then .ok (out, 0)
  else Base58Check.toBase58Check host keyId keyIdSize param.prefixPubkeyAddress
    param.prefixPubkeyAddressSize out

/-- `fingera_to_address_script`, src/btc/address.c:22-32. -/
def toAddressScript (host : Host) (scriptId : List Byte) (scriptIdSize : Nat) (out : List Byte)
    (outSize : Nat) (param : ChainParameters) : Res (List Byte × Nat) :=
  if outSize < Base58Check.toBase58CheckLength scriptIdSize param.prefixScriptAddressSize then .ok (out, 0)
  else Base58Check.toBase58Check host scriptId scriptIdSize param.prefixScriptAddress
    param.prefixScriptAddressSize out

/-- The common part of the three witness encoders, src/btc/address.c:41-50, 60-69, 80-92: `buffer` is
the local array (its initial contents do not matter; any are used). -/
def witnessEncode (buffer : List Byte) (version : Byte) (program : List Byte) (programSize : Nat)
    (out : List Byte) (outSize : Nat) (param : ChainParameters) : Res (List Byte × Nat) := do
  let buffer ← wr buffer 0 version
  let (rest, n) ← Base32.toBase32Raw program programSize (buffer.drop 1)
  let buffer := buffer.take 1 ++ rest
  let bufSize := n + 1
  let resultSize := Bech32.encodeLength param.bech32HrpSize bufSize
  if outSize < resultSize then pure (out, 0)
  else do
    let out ← Bech32.encode param.bech32Hrp param.bech32HrpSize buffer bufSize out
    pure (out, resultSize)

/-- `fingera_to_address_witnessv0_keyhash`, src/btc/address.c:34-51.  `nd`: `NDEBUG` is defined. -/
def toAddressWitnessV0Keyhash (nd : Bool) (keyHash : List Byte) (keyHashSize : Nat) (out : List Byte) (outSize : Nat)
    (param : ChainParameters) : Res (List Byte × Nat) := do
  assertNd nd (keyHashSize == 20)
  if keyHashSize ≠ 20 then pure (out, 0)
  else witnessEncode (List.replicate 64 0xAA#8) 0#8 keyHash keyHashSize out outSize param

/-- `fingera_to_address_witnessv0_scripthash`, src/btc/address.c:53-70.  `nd`: `NDEBUG` is defined. -/
def toAddressWitnessV0Scripthash (nd : Bool) (scriptHash : List Byte) (scriptHashSize : Nat) (out : List Byte)
    (outSize : Nat) (param : ChainParameters) : Res (List Byte × Nat) := do
  assertNd nd (scriptHashSize == 32)
  if scriptHashSize ≠ 32 then pure (out, 0)
  else witnessEncode (List.replicate 64 0xAA#8) 0#8 scriptHash scriptHashSize out outSize param

/-- `fingera_to_address_witness_unknown`, src/btc/address.c:72-93. -/
def toAddressWitnessUnknown (vp : List Byte) (vpSize : Nat) (out : List Byte) (outSize : Nat)
    (param : ChainParameters) : Res (List Byte × Nat) := do
  if vpSize < 3 ∨ vpSize > 41 then pure (out, 0)
  else do
    let version ← rd vp 0
    if version.toNat < 1 ∨ version.toNat > 16 then pure (out, 0)
    else witnessEncode (List.replicate 128 0xAA#8) version (vp.drop 1) (vpSize - 1) out outSize param

/-- Result of decoding: the type, the memory at `out` and `*out_size`. -/
structure Decoded where
  kind : Kind
  out : List Byte
  outSize : Nat
deriving DecidableEq, Repr

/-- src/btc/address.c:111-139: the HRP matched; `buffer` holds `bech32Size ≥ 1` values. -/
def decodeWitness (cs : Bool) (buffer : List Byte) (bech32Size : Nat) (out : List Byte) (outSize : Nat) :
    Res Decoded := do
  let need ← Base32.fromBase32RawLength (bech32Size - 1)
  if outSize ≥ need then do
    let version ← rd buffer 0
    if version = 0#8 then do
      let (out, n) ← Base32.fromBase32Raw cs (buffer.drop 1) (bech32Size - 1) out
      if n = 20 then pure ⟨.witnessV0Keyhash, out, n⟩
      else if n = 32 then pure ⟨.witnessV0Scripthash, out, n⟩
      else pure ⟨.bad, out, n⟩
    else do
      let out ← wr out 0 version
      let (rest, n) ← Base32.fromBase32Raw cs (buffer.drop 1) (bech32Size - 1) (out.drop 1)
      let out := out.take 1 ++ rest
      let n := n + 1
      if version.toNat > 16 ∨ n < 3 ∨ n > 41 then pure ⟨.bad, out, n⟩
      else pure ⟨.witnessUnknown, out, n⟩
  else pure ⟨.bad, out, outSize⟩

/-- The object `buffer` of src/btc/address.c:98 (`DECLARE_BUFFER`, include/fingera_libc/sl/buffer.h:14-25).
If `str_len - 7` is at most 128 it is a stack array of 128 bytes whose contents are indeterminate: they
are the parameter `stack`.  Otherwise it is `malloc(str_len - 7)`, where for `str_len < 7` the size wraps
around to a huge number and the result is NULL; in these cases nothing may be accessed and the object
is modelled as empty. -/
def buffer (stack : List Byte) (strLen : Nat) : List Byte :=
  if 7 ≤ strLen ∧ strLen - 7 ≤ 128 then stack.take 128 else []

/-- `decode_bech32`, src/btc/address.c:95-140.  `cs`: plain `char` is signed; `stack`: see `buffer`. -/
def decodeBech32 (cs : Bool) (stack : List Byte) (str : List Byte) (strLen : Nat) (out : List Byte)
    (outSize : Nat) (param : ChainParameters) : Res Decoded := do
  let r ← Bech32.decode str strLen (List.replicate 16 0xAA#8) 16 (buffer stack strLen)
  if r.ret < 1 ∨ r.hrpSize ≠ param.bech32HrpSize then pure ⟨.bad, out, outSize⟩
  else do
    let same ← memeq r.hrp param.bech32Hrp r.hrpSize
    if !same then pure ⟨.bad, out, outSize⟩
    else decodeWitness cs r.b32 r.ret.toNat out outSize

/-- src/btc/address.c:150-155 / 156-162: does the payload of `size` bytes at `out` start with the prefix? -/
def hasPrefix (out : List Byte) (size : Nat) (pre : List Byte) (preSize : Nat) : Res Bool :=
  if size ≥ preSize then memeq out pre preSize else .ok false

/-- src/btc/address.c:153-155 / 159-161: drop the prefix (`memmove` within `out`). -/
def strip (kind : Kind) (out : List Byte) (size preSize : Nat) : Res Decoded := do
  let out ← memcpy out 0 (out.drop preSize) (size - preSize)
  pure ⟨kind, out, size - preSize⟩

/-- `fingera_btc_address_decode`, src/btc/address.c:142-165. -/
def addressDecode (host : Host) (cs : Bool) (stack : List Byte) (str : List Byte) (strLen : Nat)
    (out : List Byte) (outSize : Nat) (param : ChainParameters) : Res Decoded := do
  if outSize < Base58Check.fromBase58CheckLength strLen then pure ⟨.bad, out, outSize⟩
  else do
    let (out, size) ← Base58Check.fromBase58Check host cs str strLen out
    if size ≠ 0 then do
      let isPubkey ← hasPrefix out size param.prefixPubkeyAddress param.prefixPubkeyAddressSize
      if isPubkey then strip .pubkey out size param.prefixPubkeyAddressSize
      else do
        let isScript ← hasPrefix out size param.prefixScriptAddress param.prefixScriptAddressSize
        if isScript then strip .script out size param.prefixScriptAddressSize
        else decodeBech32 cs stack str strLen out outSize param
    else decodeBech32 cs stack str strLen out outSize param

end Address
