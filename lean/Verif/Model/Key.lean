import Verif.Model.Secp256k1
import Verif.Model.ChainParameters
import Verif.Model.Base58Check
import Verif.Model.BtcHash
/-!
Model of `src/btc/key.c` (contexts and random numbers: `Verif.Model.KeyContext`).

`nd`: `NDEBUG` is defined.  Wiping of local arrays before they die (`fingera_cleanse`) is left out.  Local
arrays without initialiser are given the contents 0xAA.
-/
namespace Key
open SecpLib

/-- Unsigned subtraction of `size_t` values (64 bits): wraps. -/
def usub (a b : Nat) : Nat := (a + 2 ^ 64 - b) % 2 ^ 64

/-- `while (k > 0 && input[pos] == 0) { pos++; k--; }`, src/btc/key.c:69-72, 108-111, 131-134, 143-146. -/
def skipZeros (inp : List Byte) : Nat → Nat → Res (Nat × Nat)
  | pos, 0 => .ok (pos, 0)
  | pos, k+1 => do
    let b ← rd inp pos
    if b = 0#8 then skipZeros inp (pos+1) k else pure (pos, k+1)

/-- `while (lenbyte > 0) { len = (len << 8) + input[pos]; pos++; lenbyte--; }`, src/btc/key.c:78-82,
117-121 (at most three rounds, no overflow). -/
def readLen (inp : List Byte) : Nat → Nat → Nat → Res (Nat × Nat)
  | pos, 0, len => .ok (pos, len)
  | pos, k+1, len => do
    let b ← rd inp pos
    readLen inp (pos+1) k (len * 256 + b.toNat)

/-- Tag and length of an INTEGER, src/btc/key.c:53-88 and 92-127: `none` is `return 0`, otherwise the
position of the contents and their length. -/
def intHeader (inp : List Byte) (inpLen pos : Nat) : Res (Option (Nat × Nat)) :=
  if pos = inpLen then .ok none
  else do
    let t ← rd inp pos
    if t ≠ 0x02#8 then pure none
    else
      let pos := pos + 1
      if pos = inpLen then pure none
      else do
        let b ← rd inp pos
        let pos := pos + 1
        if b &&& 0x80#8 ≠ 0#8 then
          let lenbyte := b.toNat - 0x80
          if lenbyte > usub inpLen pos then pure none
          else do
            let (pos, lenbyte) ← skipZeros inp pos lenbyte
            if lenbyte ≥ 4 then pure none
            else do
              let (pos, len) ← readLen inp pos lenbyte 0
              if len > usub inpLen pos then pure none else pure (some (pos, len))
        else
          let len := b.toNat
          if len > usub inpLen pos then pure none else pure (some (pos, len))

/-- Sequence tag and length, src/btc/key.c:34-51: `none` is `return 0`, otherwise the new `pos`. -/
def seqHeader (inp : List Byte) (inpLen : Nat) : Res (Option Nat) :=
  if 0 = inpLen then .ok none
  else do
    let t ← rd inp 0
    if t ≠ 0x30#8 then pure none
    else if 1 = inpLen then pure none
    else do
      let b ← rd inp 1
      if b &&& 0x80#8 ≠ 0#8 then
        let lenbyte := b.toNat - 0x80
        if lenbyte > usub inpLen 2 then pure none else pure (some (2 + lenbyte))
      else pure (some 2)

/-- Strip zeros and copy a number right-aligned into `tmpsig`, src/btc/key.c:130-140 (`fin = 32`) and
142-152 (`fin = 64`): the array and the flag `overflow`. -/
def copyInt (inp tmp : List Byte) (fin pos len : Nat) : Res (List Byte × Bool) := do
  let (pos, len) ← skipZeros inp pos len
  if len > 32 then pure (tmp, true)
  else do
    let tmp ← memcpy tmp (fin - len) (inp.drop pos) len
    pure (tmp, false)

/-- `ecdsa_signature_parse_der_lax`, src/btc/key.c:21-164: the signature object and the return value. -/
def parseDerLax (inp : List Byte) (inpLen : Nat) : Res (Sig × Bool) := do
  let tmp : List Byte := List.replicate 64 0#8
  let (sig, _) ← sigParseCompact tmp
  match ← seqHeader inp inpLen with
  | none => pure (sig, false)
  | some pos =>
    match ← intHeader inp inpLen pos with
    | none => pure (sig, false)
    | some (rpos, rlen) =>
      match ← intHeader inp inpLen (rpos + rlen) with
      | none => pure (sig, false)
      | some (spos, slen) => do
        let (tmp, ovr) ← copyInt inp tmp 32 rpos rlen
        let (tmp, ovs) ← copyInt inp tmp 64 spos slen
        let overflow := ovr || ovs
        let (sig, overflow) ←
          if !overflow then do
            let (sig, r) ← sigParseCompact tmp
            pure (sig, !r)
          else pure (sig, overflow)
        if overflow then do
          let tmp ← memset tmp 0 0#8 64
          let (sig, _) ← sigParseCompact tmp
          pure (sig, true)
        else pure (sig, true)

/-- The part of `ec_privkey_import_der` after the sequence header, src/btc/key.c:216-236. -/
def importBody (out32 inp : List Byte) (len pos : Nat) : Res (List Byte × Bool) :=
  if len < pos + 3 then .ok (out32, false)
  else do
    let v0 ← rd inp pos
    let v1 ← rd inp (pos+1)
    let v2 ← rd inp (pos+2)
    if v0 ≠ 0x02#8 ∨ v1 ≠ 0x01#8 ∨ v2 ≠ 0x01#8 then pure (out32, false)
    else
      let pos := pos + 3
      if len < pos + 2 then pure (out32, false)
      else do
        let t ← rd inp pos
        if t ≠ 0x04#8 then pure (out32, false)
        else do
          let b ← rd inp (pos+1)
          let oslen := b.toNat
          let pos := pos + 2
          if oslen > 32 ∨ len < pos + oslen then pure (out32, false)
          else do
            let out32 ← memcpy out32 (32 - oslen) (inp.drop pos) oslen
            let ok ← seckeyVerify out32
            if !ok then do
              let out32 ← memset out32 0 0#8 32
              pure (out32, false)
            else pure (out32, true)

/-- `ec_privkey_import_der`, src/btc/key.c:187-237: the memory at `out32` and the return value.
`end - privkey < k` is `len < pos + k`. -/
def importDer (out32 inp : List Byte) (len : Nat) : Res (List Byte × Bool) := do
  let out32 ← memset out32 0 0#8 32
  if len < 0 + 1 then pure (out32, false)
  else do
    let t ← rd inp 0
    if t ≠ 0x30#8 then pure (out32, false)
    else if len < 1 + 1 then pure (out32, false)
    else do
      let b ← rd inp 1
      if b &&& 0x80#8 = 0#8 then pure (out32, false)
      else
        let lenb := (b &&& 0x7F#8).toNat
        if lenb < 1 ∨ lenb > 2 then pure (out32, false)
        else if len < 2 + lenb then pure (out32, false)
        else do
          let lo ← rd inp (2 + (lenb - 1))
          let hi ← if lenb > 1 then rd inp (2 + (lenb - 2)) else pure 0#8
          let sl := hi.toNat * 256 + lo.toNat
          if len < 2 + lenb + sl then pure (out32, false)
          else importBody out32 inp len (2 + lenb)

/-- `begin`, src/btc/key.c:265-266 (8 bytes). -/
def beginCompressed : List Byte := [
  0x30#8, 0x81#8, 0xD3#8, 0x02#8, 0x01#8, 0x01#8, 0x04#8, 0x20#8]

/-- `middle`, src/btc/key.c:267-279 (141 bytes). -/
def middleCompressed : List Byte := [
  0xA0#8, 0x81#8, 0x85#8, 0x30#8, 0x81#8, 0x82#8, 0x02#8, 0x01#8, 0x01#8, 0x30#8, 0x2C#8, 0x06#8,
  0x07#8, 0x2A#8, 0x86#8, 0x48#8, 0xCE#8, 0x3D#8, 0x01#8, 0x01#8, 0x02#8, 0x21#8, 0x00#8, 0xFF#8,
  0xFF#8, 0xFF#8, 0xFF#8, 0xFF#8, 0xFF#8, 0xFF#8, 0xFF#8, 0xFF#8, 0xFF#8, 0xFF#8, 0xFF#8, 0xFF#8,
  0xFF#8, 0xFF#8, 0xFF#8, 0xFF#8, 0xFF#8, 0xFF#8, 0xFF#8, 0xFF#8, 0xFF#8, 0xFF#8, 0xFF#8, 0xFF#8,
  0xFF#8, 0xFF#8, 0xFE#8, 0xFF#8, 0xFF#8, 0xFC#8, 0x2F#8, 0x30#8, 0x06#8, 0x04#8, 0x01#8, 0x00#8,
  0x04#8, 0x01#8, 0x07#8, 0x04#8, 0x21#8, 0x02#8, 0x79#8, 0xBE#8, 0x66#8, 0x7E#8, 0xF9#8, 0xDC#8,
  0xBB#8, 0xAC#8, 0x55#8, 0xA0#8, 0x62#8, 0x95#8, 0xCE#8, 0x87#8, 0x0B#8, 0x07#8, 0x02#8, 0x9B#8,
  0xFC#8, 0xDB#8, 0x2D#8, 0xCE#8, 0x28#8, 0xD9#8, 0x59#8, 0xF2#8, 0x81#8, 0x5B#8, 0x16#8, 0xF8#8,
  0x17#8, 0x98#8, 0x02#8, 0x21#8, 0x00#8, 0xFF#8, 0xFF#8, 0xFF#8, 0xFF#8, 0xFF#8, 0xFF#8, 0xFF#8,
  0xFF#8, 0xFF#8, 0xFF#8, 0xFF#8, 0xFF#8, 0xFF#8, 0xFF#8, 0xFF#8, 0xFE#8, 0xBA#8, 0xAE#8, 0xDC#8,
  0xE6#8, 0xAF#8, 0x48#8, 0xA0#8, 0x3B#8, 0xBF#8, 0xD2#8, 0x5E#8, 0x8C#8, 0xD0#8, 0x36#8, 0x41#8,
  0x41#8, 0x02#8, 0x01#8, 0x01#8, 0xA1#8, 0x24#8, 0x03#8, 0x22#8, 0x00#8]

/-- `begin`, src/btc/key.c:295-296 (9 bytes). -/
def beginUncompressed : List Byte := [
  0x30#8, 0x82#8, 0x01#8, 0x13#8, 0x02#8, 0x01#8, 0x01#8, 0x04#8, 0x20#8]

/-- `middle`, src/btc/key.c:297-312 (173 bytes). -/
def middleUncompressed : List Byte := [
  0xA0#8, 0x81#8, 0xA5#8, 0x30#8, 0x81#8, 0xA2#8, 0x02#8, 0x01#8, 0x01#8, 0x30#8, 0x2C#8, 0x06#8,
  0x07#8, 0x2A#8, 0x86#8, 0x48#8, 0xCE#8, 0x3D#8, 0x01#8, 0x01#8, 0x02#8, 0x21#8, 0x00#8, 0xFF#8,
  0xFF#8, 0xFF#8, 0xFF#8, 0xFF#8, 0xFF#8, 0xFF#8, 0xFF#8, 0xFF#8, 0xFF#8, 0xFF#8, 0xFF#8, 0xFF#8,
  0xFF#8, 0xFF#8, 0xFF#8, 0xFF#8, 0xFF#8, 0xFF#8, 0xFF#8, 0xFF#8, 0xFF#8, 0xFF#8, 0xFF#8, 0xFF#8,
  0xFF#8, 0xFF#8, 0xFE#8, 0xFF#8, 0xFF#8, 0xFC#8, 0x2F#8, 0x30#8, 0x06#8, 0x04#8, 0x01#8, 0x00#8,
  0x04#8, 0x01#8, 0x07#8, 0x04#8, 0x41#8, 0x04#8, 0x79#8, 0xBE#8, 0x66#8, 0x7E#8, 0xF9#8, 0xDC#8,
  0xBB#8, 0xAC#8, 0x55#8, 0xA0#8, 0x62#8, 0x95#8, 0xCE#8, 0x87#8, 0x0B#8, 0x07#8, 0x02#8, 0x9B#8,
  0xFC#8, 0xDB#8, 0x2D#8, 0xCE#8, 0x28#8, 0xD9#8, 0x59#8, 0xF2#8, 0x81#8, 0x5B#8, 0x16#8, 0xF8#8,
  0x17#8, 0x98#8, 0x48#8, 0x3A#8, 0xDA#8, 0x77#8, 0x26#8, 0xA3#8, 0xC4#8, 0x65#8, 0x5D#8, 0xA4#8,
  0xFB#8, 0xFC#8, 0x0E#8, 0x11#8, 0x08#8, 0xA8#8, 0xFD#8, 0x17#8, 0xB4#8, 0x48#8, 0xA6#8, 0x85#8,
  0x54#8, 0x19#8, 0x9C#8, 0x47#8, 0xD0#8, 0x8F#8, 0xFB#8, 0x10#8, 0xD4#8, 0xB8#8, 0x02#8, 0x21#8,
  0x00#8, 0xFF#8, 0xFF#8, 0xFF#8, 0xFF#8, 0xFF#8, 0xFF#8, 0xFF#8, 0xFF#8, 0xFF#8, 0xFF#8, 0xFF#8,
  0xFF#8, 0xFF#8, 0xFF#8, 0xFF#8, 0xFE#8, 0xBA#8, 0xAE#8, 0xDC#8, 0xE6#8, 0xAF#8, 0x48#8, 0xA0#8,
  0x3B#8, 0xBF#8, 0xD2#8, 0x5E#8, 0x8C#8, 0xD0#8, 0x36#8, 0x41#8, 0x41#8, 0x02#8, 0x01#8, 0x01#8,
  0xA1#8, 0x44#8, 0x03#8, 0x42#8, 0x00#8]

/-- The common part of the two branches of `ec_privkey_export_der`, src/btc/key.c:280-291 and 313-324. -/
def exportWrite (nd : Bool) (out key32 begin middle : List Byte) (pk : PubObj) (pubLen total : Nat)
    (compr : Bool) : Res (List Byte × Nat × Bool) := do
  let out ← memcpy out 0 begin begin.length
  let out ← memcpy out begin.length key32 32
  let out ← memcpy out (begin.length + 32) middle middle.length
  let ptr := begin.length + 32 + middle.length
  let (rest, pubLen, _) ← pubkeySerialize (out.drop ptr) pubLen pk compr
  let out := out.take ptr ++ rest
  assertNd nd (ptr + pubLen == total)
  pure (out, ptr + pubLen, true)

/-- `ec_privkey_export_der`, src/btc/key.c:253-327: memory, `*privkeylen`, return value. -/
def exportDer (nd : Bool) (out : List Byte) (len : Nat) (key32 : List Byte) (compr : Bool) :
    Res (List Byte × Nat × Bool) := do
  let (pk, r) ← pubkeyCreate key32
  if !r then pure (out, 0, false)
  else if compr then do
    assertNd nd (decide (len ≥ 214))
    exportWrite nd out key32 beginCompressed middleCompressed pk 33 214 compr
  else do
    assertNd nd (decide (len ≥ 279))
    exportWrite nd out key32 beginUncompressed middleUncompressed pk 65 279 compr

/-- `fingera_btc_key_to_string`, src/btc/key.c:360-375: memory and return value. -/
def keyToString (host : Host) (key32 str : List Byte) (isCompressed : Bool) (param : ChainParameters) :
    Res (List Byte × Nat) :=
  if isCompressed then do
    let buf33 := List.replicate 33 0xAA#8
    let buf33 ← memcpy buf33 0 key32 32
    let buf33 ← wr buf33 32 1#8
    Base58Check.toBase58Check host buf33 33 param.prefixSecretKey param.prefixSecretKeySize str
  else Base58Check.toBase58Check host key32 32 param.prefixSecretKey param.prefixSecretKeySize str

/-- Result of `fingera_btc_key_from_string`: return value, memory at `key32` and `*is_compressed`. -/
structure FromString where
  ok : Bool
  key32 : List Byte
  isCompressed : Int
deriving DecidableEq, Repr

/-- src/btc/key.c:395-398: prefix comparison and copy. -/
def wifFinish (buf key32 : List Byte) (isCompressed : Int) (param : ChainParameters) : Res FromString := do
  let same ← memeq buf param.prefixSecretKey param.prefixSecretKeySize
  if !same then pure ⟨false, key32, isCompressed⟩
  else do
    let key32 ← memcpy key32 0 (buf.drop param.prefixSecretKeySize) 32
    pure ⟨true, key32, isCompressed⟩

/-- `fingera_btc_key_from_string`, src/btc/key.c:376-399. -/
def keyFromString (nd : Bool) (host : Host) (cs : Bool) (str : List Byte) (strLen : Nat) (key32 : List Byte)
    (isCompressed : Int) (param : ChainParameters) : Res FromString := do
  let buf := List.replicate 40 0xAA#8
  assertNd nd (decide (param.prefixSecretKeySize ≤ 8))
  let (buf, size) ← Base58Check.fromBase58Check host cs str strLen buf
  if size ≤ 32 then pure ⟨false, key32, isCompressed⟩
  else
    let preSize := size - 32
    if param.prefixSecretKeySize ≠ preSize then
      if param.prefixSecretKeySize ≠ preSize - 1 then pure ⟨false, key32, isCompressed⟩
      else do
        let b ← rd buf (size - 1)
        if b ≠ 1#8 then pure ⟨false, key32, isCompressed⟩
        else wifFinish buf key32 1 param
    else wifFinish buf key32 0 param

/-- `fingera_btc_key_encode`, src/btc/key.c:428-446: memory and return value. -/
def keyEncode (nd : Bool) (key32 out : List Byte) (len : Nat) : Res (List Byte × Bool) := do
  assertNd nd (len == 279 || len == 214)
  if len ≠ 279 ∧ len ≠ 214 then pure (out, false)
  else do
    let (out, encodedLen, r) ← exportDer nd out len key32 (len == 214)
    let r := if encodedLen = len then r else false
    assertNd nd (encodedLen == len)
    pure (out, r)

/-- `fingera_btc_key_decode`, src/btc/key.c:448-452: the memory at `key32` and the return value. -/
def keyDecode (enc : List Byte) (len : Nat) (key32 : List Byte) : Res (List Byte × Bool) :=
  importDer key32 enc len

/-- `fingera_btc_key_get_pub`, src/btc/key.c:454-461. -/
def keyGetPub (nd : Bool) (key32 : List Byte) : Res PubObj := do
  let (pk, r) ← pubkeyCreate key32
  assertNd nd r
  pure pk

/-- `fingera_btc_pubkey_encode`, src/btc/key.c:483-501: memory and return value. -/
def pubkeyEncode (nd : Bool) (pk : PubObj) (out : List Byte) (len : Nat) : Res (List Byte × Bool) := do
  assertNd nd (len == 65 || len == 33)
  if len ≠ 65 ∧ len ≠ 33 then pure (out, false)
  else do
    let (out, outLen, r) ← pubkeySerialize out len pk (len == 33)
    let r := if outLen = len then r else false
    assertNd nd (outLen == len)
    pure (out, r)

/-- `fingera_btc_pubkey_decode`, src/btc/key.c:503-515: object and return value (an object that was not
touched is modelled as `none`). -/
def pubkeyDecode (nd : Bool) (enc : List Byte) (len : Nat) : Res (PubObj × Bool) := do
  assertNd nd (len == 65 || len == 33)
  if len ≠ 65 ∧ len ≠ 33 then pure (none, false)
  else pubkeyParse enc len

/-- Result of the derivation functions: return value and the memory at `out_key32` / `out_pubkey33` and
`out_chain32`. -/
structure Derived where
  ok : Bool
  key : List Byte
  chain : List Byte
deriving DecidableEq, Repr

/-- src/btc/key.c:405-417: the HMAC output, and `ret`. -/
def deriveHash (nd : Bool) (host : Host) (key32 chain32 : List Byte) (child : U32) :
    Res (List Byte × Bool) := do
  let out := List.replicate 64 0xAA#8
  if child >>> 31 = 0#32 then do
    let enc := List.replicate 33 0xAA#8
    let pk ← keyGetPub nd key32
    let (enc, ret) ← pubkeyEncode nd pk enc 33
    let header ← rd enc 0
    let out ← BtcHash.bip32_hash host chain32 child header (enc.drop 1) out
    pure (out, ret)
  else do
    let out ← BtcHash.bip32_hash host chain32 child 0#8 key32 out
    pure (out, true)

/-- `fingera_btc_key_derive`, src/btc/key.c:401-426. -/
def keyDerive (nd : Bool) (host : Host) (key32 chain32 outKey outChain : List Byte) (child : U32) :
    Res Derived := do
  let (out, ret) ← deriveHash nd host key32 chain32 child
  if ret then do
    let outKey ← memcpy outKey 0 key32 32
    let outChain ← memcpy outChain 0 (out.drop 32) 32
    let (outKey, ret) ← privkeyTweakAdd outKey out
    pure ⟨ret, outKey, outChain⟩
  else pure ⟨false, outKey, outChain⟩

/-- `fingera_btc_pubkey_derive`, src/btc/key.c:463-481. -/
def pubkeyDerive (nd : Bool) (host : Host) (pub33 chain32 outPub outChain : List Byte) (child : U32) :
    Res Derived := do
  assertNd nd (child >>> 31 == 0#32)
  let t ← rd pub33 0
  assertNd nd (t == 2#8 || t == 3#8)
  let out := List.replicate 64 0xAA#8
  let (_, ok) ← pubkeyDecode nd pub33 33
  if !ok then pure ⟨false, outPub, outChain⟩
  else do
    let out ← BtcHash.bip32_hash host chain32 child t (pub33.drop 1) out
    let outChain ← memcpy outChain 0 (out.drop 32) 32
    let (pk, ok) ← pubkeyParse pub33 33
    if !ok then pure ⟨false, outPub, outChain⟩
    else do
      let (pk, ok) ← pubkeyTweakAdd pk out
      if !ok then pure ⟨false, outPub, outChain⟩
      else do
        let (outPub, ok) ← pubkeyEncode nd pk outPub 33
        if !ok then pure ⟨false, outPub, outChain⟩ else pure ⟨true, outPub, outChain⟩

/-- `SigHasLowR`, src/btc/key.c:518-532. -/
def sigHasLowR (sig : Sig) : Res Bool := do
  let compact ← sigSerializeCompact (List.replicate 64 0xAA#8) sig
  let b ← rd compact 0
  pure (decide (b.toNat < 0x80))

/-- `while (ret && !SigHasLowR(sig)) { … }`, src/btc/key.c:546-552.  The loop has no bound; the model gives up
(`none`) after `fuel` rounds (each with at most `sf` nonces inside the library). -/
def grind (host : Host) (sf : Nat) (key32 hash32 : List Byte) :
    Nat → Sig → Bool → List Byte → U32 → Res (Option (Sig × Bool))
  | 0, _, _, _, _ => .ok none
  | fuel+1, sig, ret, extra, counter => do
    let low ← if ret then sigHasLowR sig else pure true
    if ret && !low then do
      let counter := counter + 1#32
      let extra ← Endian.writeLittle32 host extra 0 counter
      match ← ecdsaSign sf hash32 key32 (some extra) with
      | none => pure none
      | some (sig, ret) => grind host sf key32 hash32 fuel sig ret extra counter
    else pure (some (sig, ret))

/-- `fingera_btc_key_sign`, src/btc/key.c:534-554 (`none`: the model gave up, see `grind`). -/
def keySign (nd : Bool) (host : Host) (sf fuel : Nat) (key32 hash32 : List Byte) : Res (Option Sig) := do
  match ← ecdsaSign sf hash32 key32 none with
  | none => pure none
  | some (sig, ret) =>
    match ← grind host sf key32 hash32 fuel sig ret (List.replicate 32 0#8) 0#32 with
    | none => pure none
    | some (sig, ret) => do
      assertNd nd ret
      pure (some sig)

/-- `fingera_btc_signature_encode`, src/btc/key.c:556-566: memory and return value. -/
def signatureEncode (sig : Sig) (out : List Byte) : Res (List Byte × Nat) := do
  let (out, len, r) ← sigSerializeDer out 72 sig
  pure (out, if r then len else 0)

/-- `fingera_btc_signature_decode`, src/btc/key.c:576-583: object and return value. -/
def signatureDecode (enc : List Byte) (len : Nat) : Res (Sig × Bool) := parseDerLax enc len

/-- `fingera_btc_key_verify`, src/btc/key.c:585-601. -/
def keyVerify (pk : PubObj) (hash32 : List Byte) (sig : Sig) : Res Bool :=
  ecdsaVerify (sigNormalize sig) hash32 pk

/-- `fingera_btc_pubkey_keyid`, src/btc/key.c:609-617. -/
def pubkeyKeyid (nd : Bool) (host : Host) (pk : PubObj) (compress : Bool) (keyid : List Byte) :
    Res (List Byte) := do
  let len := if compress then 33 else 65
  let enc := List.replicate 65 0xAA#8
  let (enc, r) ← pubkeyEncode nd pk enc len
  assertNd nd r
  BtcHash.hash160 host enc len keyid

/-- `fingera_btc_key_keyid`, src/btc/key.c:603-607. -/
def keyKeyid (nd : Bool) (host : Host) (key32 : List Byte) (compress : Bool) (keyid : List Byte) :
    Res (List Byte) := do
  let pk ← keyGetPub nd key32
  pubkeyKeyid nd host pk compress keyid

/-- `fingera_btc_key_fingerprint`, src/btc/key.c:619-623. -/
def keyFingerprint (nd : Bool) (host : Host) (key32 : List Byte) (compress : Bool) : Res U32 := do
  let keyid ← keyKeyid nd host key32 compress (List.replicate 20 0xAA#8)
  Endian.readLittle32 host keyid 0

/-- `fingera_btc_pubkey_fingerprint`, src/btc/key.c:624-628. -/
def pubkeyFingerprint (host : Host) (pub33 : List Byte) : Res U32 := do
  let keyid ← BtcHash.hash160 host pub33 33 (List.replicate 20 0xAA#8)
  Endian.readLittle32 host keyid 0

end Key
