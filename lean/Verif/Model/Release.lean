import Verif.Model.Address
import Verif.Model.Exkey
import Verif.Model.KeyContext
/-!
The functions of base58.c, base58_check.c, bech32.c, address.c, key.c and exkey.c that reach an `assert` of base58.c or bech32.c,
once more with the parameter `nd`: `NDEBUG` is defined, the assertions are compiled away.  With `nd = false` they are the functions
of the other model files (`Verif.Lemmas.Release`).  The functions whose own assertions matter have the parameter in the other
model files already.
-/
namespace Release

/-- Loop body, src/base58.c:45-57, at input offset `p`. -/
def encBody (nd : Bool) (buf : List Byte) (size : Nat) (p : Nat) (st : List Byte × Nat) : Res (List Byte × Nat) := do
  let (b58, length) := st
  let b ← rd buf p
  let (b58, i, carry) ← Base58.carryLoop 58 256 length size 0 b.toNat b58
  assertNd nd (carry == 0)
  pure (b58, i)

/-- `fingera_to_base58`, src/base58.c:29-71. -/
def toBase58 (nd : Bool) (buf : List Byte) (bufSize : Nat) (str : List Byte) : Res (List Byte × Nat) := do
  let zeroes ← Base58.skipZeroes buf bufSize 0
  let size := (bufSize - zeroes) * 138 / 100 + 1
  if size ≥ 2^31 then .ub
  else
    let b58 := List.replicate size 0#8
    let (b58, length) ← forLoop (encBody nd buf size) zeroes (bufSize - zeroes) (b58, 0)
    let iter ← Base58.skipZeroes b58 length (size - length)
    let str ← memset str 0 (chr '1') zeroes
    let str ← forLoop (Base58.encOut b58 zeroes iter) iter (size - iter) str
    pure (str, zeroes + (size - iter))

/-- Digit loop, src/base58.c:90-108.  A carry that is left over when the work area is full (line 105) is forgotten: the next round
declares a new one (line 98). -/
def digitLoop (nd cs : Bool) (size : Nat) : List Byte → List Byte → Nat → Res Base58.DigitsResult
  | [], _, _ => .ub
  | c :: r, b256, length => do
    if c = 0#8 then pure (some (c :: r, b256, length))
    else if ← Base58.isspace cs c then pure (some (c :: r, b256, length))
    else
      let v ← rd Base58.BASE58_DECODE c.toNat
      if v = -1 then pure none
      else
        let (b256, i, carry) ← Base58.carryLoop 256 58 length size 0 v.toNat b256
        assertNd nd (carry == 0)
        digitLoop nd cs size r b256 i

/-- `fingera_from_base58`, src/base58.c:73-126. -/
def fromBase58 (nd cs : Bool) (str : List Byte) (strLen : Nat) (buf : List Byte) : Res (List Byte × Nat) := do
  let (str1, skipped) ← Base58.skipSpaces cs str 0
  let (str2, zeroes) ← Base58.countOnes str1 0
  if zeroes ≥ 2^31 then .ub
  else
    let size ← Base58.workSize ((strLen : Int) - (skipped : Int) - (zeroes : Int))
    let b256 := List.replicate size 0#8
    match ← digitLoop nd cs size str2 b256 0 with
    | none => pure (buf, 0)
    | some (str3, b256, length) =>
      let str4 ← Base58.skipTrailing cs str3
      let c ← rd str4 0
      if c ≠ 0#8 then pure (buf, 0)
      else
        let it ← Base58.skipZeroes b256 length (size - length)
        let out ← memset buf 0 0#8 zeroes
        let out ← forLoop (Base58.decOut b256 zeroes it) it (size - it) out
        pure (out, zeroes + (size - it))

/-- `fingera_to_base58_check`, src/btc/base58_check.c:10-31. -/
def toBase58Check (nd : Bool) (host : Host) (buf : List Byte) (bufSize : Nat) (pre : List Byte) (prefixSize : Nat)
    (str : List Byte) : Res (List Byte × Nat) := do
  let hash := List.replicate 32 0xAA#8
  let sizeOfData := bufSize + prefixSize
  let sizeOfAll := sizeOfData + 4
  let buffer := List.replicate sizeOfAll 0xAA#8
  let buffer ← memcpy buffer 0 pre prefixSize
  let buffer ← memcpy buffer prefixSize buf bufSize
  let hash ← BtcHash.hash256 host buffer sizeOfData hash
  let buffer ← memcpy buffer sizeOfData hash 4
  toBase58 nd buffer sizeOfAll str

/-- `fingera_from_base58_check`, src/btc/base58_check.c:33-40. -/
def fromBase58Check (nd : Bool) (host : Host) (cs : Bool) (str : List Byte) (strLen : Nat) (buf : List Byte) :
    Res (List Byte × Nat) := do
  let hash := List.replicate 32 0xAA#8
  let (buf, bufSize) ← fromBase58 nd cs str strLen buf
  if bufSize < 4 then pure (buf, 0)
  else
    let hash ← BtcHash.hash256 host buf (bufSize - 4) hash
    let same ← memeq hash (buf.drop (bufSize - 4)) 4
    if same then pure (buf, bufSize - 4) else pure (buf, 0)

/-- `fingera_bech32_encode`, src/btc/bech32.c:82-97.  `BECH32_ENCODE` is a string literal: entry 32 is its NUL (line 8). -/
def bech32Encode (nd : Bool) (hrp : List Byte) (hrpLen : Nat) (b32 : List Byte) (b32Size : Nat) (result : List Byte) :
    Res (List Byte) := do
  let checksum ← Bech32.createChecksum hrp hrpLen b32 b32Size (List.replicate 6 0xAA#8)
  let result ← memcpy result 0 hrp hrpLen
  let result ← wr result hrpLen (chr '1')
  let result ← forLoop (fun i result => do
    let v ← rd b32 i
    assertNd nd (v.toNat < 32)
    wr result (hrpLen + 1 + i) (← rd Bech32.BECH32_ENCODE v.toNat)) 0 b32Size result
  forLoop (fun i result => do
    let v ← rd checksum i
    wr result (hrpLen + 1 + b32Size + i) (← rd Bech32.BECH32_ENCODE v.toNat)) 0 6 result

/-- `fingera_to_address_pubkey`, src/btc/address.c:10-20. -/
def toAddressPubkey (nd : Bool) (host : Host) (keyId : List Byte) (keyIdSize : Nat) (out : List Byte)
    (outSize : Nat) (param : ChainParameters) : Res (List Byte × Nat) :=
  if outSize < Base58Check.toBase58CheckLength keyIdSize param.prefixPubkeyAddressSize then .ok (out, 0)
  else toBase58Check nd host keyId keyIdSize param.prefixPubkeyAddress param.prefixPubkeyAddressSize out

/-- `fingera_to_address_script`, src/btc/address.c:22-32. -/
def toAddressScript (nd : Bool) (host : Host) (scriptId : List Byte) (scriptIdSize : Nat) (out : List Byte)
    (outSize : Nat) (param : ChainParameters) : Res (List Byte × Nat) :=
  if outSize < Base58Check.toBase58CheckLength scriptIdSize param.prefixScriptAddressSize then .ok (out, 0)
  else toBase58Check nd host scriptId scriptIdSize param.prefixScriptAddress param.prefixScriptAddressSize out

/-- The common part of the three witness encoders, src/btc/address.c:41-50, 60-69, 80-92. -/
def witnessEncode (nd : Bool) (buffer : List Byte) (version : Byte) (program : List Byte) (programSize : Nat)
    (out : List Byte) (outSize : Nat) (param : ChainParameters) : Res (List Byte × Nat) := do
  let buffer ← wr buffer 0 version
  let (rest, n) ← Base32.toBase32Raw program programSize (buffer.drop 1)
  let buffer := buffer.take 1 ++ rest
  let bufSize := n + 1
  let resultSize := Bech32.encodeLength param.bech32HrpSize bufSize
  if outSize < resultSize then pure (out, 0)
  else do
    let out ← bech32Encode nd param.bech32Hrp param.bech32HrpSize buffer bufSize out
    pure (out, resultSize)

/-- `fingera_to_address_witnessv0_keyhash`, src/btc/address.c:34-51. -/
def toAddressWitnessV0Keyhash (nd : Bool) (keyHash : List Byte) (keyHashSize : Nat) (out : List Byte) (outSize : Nat)
    (param : ChainParameters) : Res (List Byte × Nat) := do
  assertNd nd (keyHashSize == 20)
  if keyHashSize ≠ 20 then pure (out, 0)
  else witnessEncode nd (List.replicate 64 0xAA#8) 0#8 keyHash keyHashSize out outSize param

/-- `fingera_to_address_witnessv0_scripthash`, src/btc/address.c:53-70. -/
def toAddressWitnessV0Scripthash (nd : Bool) (scriptHash : List Byte) (scriptHashSize : Nat) (out : List Byte)
    (outSize : Nat) (param : ChainParameters) : Res (List Byte × Nat) := do
  assertNd nd (scriptHashSize == 32)
  if scriptHashSize ≠ 32 then pure (out, 0)
  else witnessEncode nd (List.replicate 64 0xAA#8) 0#8 scriptHash scriptHashSize out outSize param

/-- `fingera_to_address_witness_unknown`, src/btc/address.c:72-93. -/
def toAddressWitnessUnknown (nd : Bool) (vp : List Byte) (vpSize : Nat) (out : List Byte) (outSize : Nat)
    (param : ChainParameters) : Res (List Byte × Nat) := do
  if vpSize < 3 ∨ vpSize > 41 then pure (out, 0)
  else do
    let version ← rd vp 0
    if version.toNat < 1 ∨ version.toNat > 16 then pure (out, 0)
    else witnessEncode nd (List.replicate 128 0xAA#8) version (vp.drop 1) (vpSize - 1) out outSize param

/-- `fingera_btc_address_decode`, src/btc/address.c:142-165. -/
def addressDecode (nd : Bool) (host : Host) (cs : Bool) (stack : List Byte) (str : List Byte) (strLen : Nat)
    (out : List Byte) (outSize : Nat) (param : ChainParameters) : Res Address.Decoded := do
  if outSize < Base58Check.fromBase58CheckLength strLen then pure ⟨.bad, out, outSize⟩
  else do
    let (out, size) ← fromBase58Check nd host cs str strLen out
    if size ≠ 0 then do
      let isPubkey ← Address.hasPrefix out size param.prefixPubkeyAddress param.prefixPubkeyAddressSize
      if isPubkey then Address.strip .pubkey out size param.prefixPubkeyAddressSize
      else do
        let isScript ← Address.hasPrefix out size param.prefixScriptAddress param.prefixScriptAddressSize
        if isScript then Address.strip .script out size param.prefixScriptAddressSize
        else Address.decodeBech32 cs stack str strLen out outSize param
    else Address.decodeBech32 cs stack str strLen out outSize param

/-- `fingera_btc_key_to_string`, src/btc/key.c:360-375. -/
def keyToString (nd : Bool) (host : Host) (key32 str : List Byte) (isCompressed : Bool) (param : ChainParameters) :
    Res (List Byte × Nat) :=
  if isCompressed then do
    let buf33 := List.replicate 33 0xAA#8
    let buf33 ← memcpy buf33 0 key32 32
    let buf33 ← wr buf33 32 1#8
    toBase58Check nd host buf33 33 param.prefixSecretKey param.prefixSecretKeySize str
  else toBase58Check nd host key32 32 param.prefixSecretKey param.prefixSecretKeySize str

/-- `fingera_btc_key_from_string`, src/btc/key.c:376-399. -/
def keyFromString (nd : Bool) (host : Host) (cs : Bool) (str : List Byte) (strLen : Nat) (key32 : List Byte)
    (isCompressed : Int) (param : ChainParameters) : Res Key.FromString := do
  let buf := List.replicate 40 0xAA#8
  assertNd nd (decide (param.prefixSecretKeySize ≤ 8))
  let (buf, size) ← fromBase58Check nd host cs str strLen buf
  if size ≤ 32 then pure ⟨false, key32, isCompressed⟩
  else
    let preSize := size - 32
    if param.prefixSecretKeySize ≠ preSize then
      if param.prefixSecretKeySize ≠ preSize - 1 then pure ⟨false, key32, isCompressed⟩
      else do
        let b ← rd buf (size - 1)
        if b ≠ 1#8 then pure ⟨false, key32, isCompressed⟩
        else Key.wifFinish buf key32 1 param
    else Key.wifFinish buf key32 0 param

/-- `fingera_exkey_to_string`, src/btc/exkey.c:90-99. -/
def exkeyToString (nd : Bool) (host : Host) (key : Exkey.ExKey) (str : List Byte) (param : ChainParameters) :
    Res (List Byte × Nat) := do
  let extkey ← Exkey.exkeyEncode host key (List.replicate 74 0xAA#8)
  toBase58Check nd host extkey 74 param.prefixExtSecretKey param.prefixExtSecretKeySize str

/-- `fingera_exkey_from_string`, src/btc/exkey.c:101-116. -/
def exkeyFromString (nd : Bool) (host : Host) (cs : Bool) (str : List Byte) (strLen : Nat) (key : Exkey.ExKey)
    (param : ChainParameters) : Res (Exkey.ExKey × Bool) := do
  let extkey := List.replicate 82 0xAA#8
  assertNd nd (decide (param.prefixExtSecretKeySize ≤ 8))
  let (extkey, size) ← fromBase58Check nd host cs str strLen extkey
  assertNd nd (decide (size ≤ 82))
  if size ≤ 74 ∨ size > 82 then pure (key, false)
  else
    let prefixSize := size - 74
    if prefixSize ≠ param.prefixExtSecretKeySize then pure (key, false)
    else do
      let same ← memeq extkey param.prefixExtSecretKey prefixSize
      if !same then pure (key, false)
      else do
        let key ← Exkey.exkeyDecode host (extkey.drop prefixSize) key
        pure (key, true)

/-- `fingera_expubkey_to_string`, src/btc/exkey.c:130-138. -/
def expubkeyToString (nd : Bool) (host : Host) (pubkey : Exkey.ExPubkey) (str : List Byte) (param : ChainParameters) :
    Res (List Byte × Nat) := do
  let extkey ← Exkey.expubkeyEncode host pubkey (List.replicate 74 0xAA#8)
  toBase58Check nd host extkey 74 param.prefixExtPublicKey param.prefixExtPublicKeySize str

/-- `fingera_expubkey_from_string`, src/btc/exkey.c:139-153. -/
def expubkeyFromString (nd : Bool) (host : Host) (cs : Bool) (str : List Byte) (strLen : Nat) (pub : Exkey.ExPubkey)
    (param : ChainParameters) : Res (Exkey.ExPubkey × Bool) := do
  let extkey := List.replicate 82 0xAA#8
  assertNd nd (decide (param.prefixExtPublicKeySize ≤ 8))
  let (extkey, size) ← fromBase58Check nd host cs str strLen extkey
  assertNd nd (decide (size ≤ 82))
  if size ≤ 74 ∨ size > 82 then pure (pub, false)
  else
    let prefixSize := size - 74
    if prefixSize ≠ param.prefixExtPublicKeySize then pure (pub, false)
    else do
      let same ← memeq extkey param.prefixExtPublicKey prefixSize
      if !same then pure (pub, false)
      else do
        let pub ← Exkey.expubkeyDecode host (extkey.drop prefixSize) pub
        pure (pub, true)

end Release
