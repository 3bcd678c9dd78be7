import Verif.Model.Address
import Verif.Model.Exkey
import Verif.Model.KeyContext
/-!
The readers of texts that call `isspace`, `isupper` or `tolower` (base58.c 76, 90, 110; bech32.c 123) and the functions that call
them, once more with the character classification of an arbitrary locale (`setlocale`, LC_CTYPE) in place of the one of the "C" locale.
-/

/-- The character functions of a locale, on `unsigned char` values (C11 7.4). -/
structure Locale where
  isspace : Byte → Bool
  isupper : Byte → Bool
  tolower : Byte → Byte

/-- The "C" locale. -/
def Locale.c : Locale where
  isspace c := c.toNat = 32 || (9 ≤ c.toNat && c.toNat ≤ 13)
  isupper c := 65 ≤ c.toNat && c.toNat ≤ 90
  tolower c := if 65 ≤ c.toNat ∧ c.toNat ≤ 90 then c + 32#8 else c

namespace Localized

/-- `isspace(c)` for `char c`.  Where `char` is signed (`cs`) a negative argument other than EOF (-1) is undefined (C11 7.4p1), and
EOF is no space. -/
def isspace (L : Locale) (cs : Bool) (c : Byte) : Res Bool :=
  if cs && 128 ≤ c.toNat && c.toNat < 255 then .ub
  else if cs && c.toNat = 255 then .ok false
  else .ok (L.isspace c)

/-- `while (*str && isspace(*str)) str++`, src/base58.c:76-78. -/
def skipSpaces (L : Locale) (cs : Bool) : List Byte → Nat → Res (List Byte × Nat)
  | [], _ => .ub
  | c :: r, n => do
    if c = 0#8 then pure (c :: r, n)
    else if ← isspace L cs c then skipSpaces L cs r (n+1) else pure (c :: r, n)

/-- Digit loop, src/base58.c:90-108. -/
def digitLoop (L : Locale) (cs : Bool) (size : Nat) : List Byte → List Byte → Nat → Res Base58.DigitsResult
  | [], _, _ => .ub
  | c :: r, b256, length => do
    if c = 0#8 then pure (some (c :: r, b256, length))
    else if ← isspace L cs c then pure (some (c :: r, b256, length))
    else
      let v ← rd Base58.BASE58_DECODE c.toNat
      if v = -1 then pure none
      else
        let (b256, i, carry) ← Base58.carryLoop 256 58 length size 0 v.toNat b256
        assertC (carry == 0)
        digitLoop L cs size r b256 i

/-- `while (isspace(*str)) str++`, src/base58.c:110. -/
def skipTrailing (L : Locale) (cs : Bool) : List Byte → Res (List Byte)
  | [] => .ub
  | c :: r => do if ← isspace L cs c then skipTrailing L cs r else pure (c :: r)

/-- `fingera_from_base58`, src/base58.c:73-126. -/
def fromBase58 (L : Locale) (cs : Bool) (str : List Byte) (strLen : Nat) (buf : List Byte) : Res (List Byte × Nat) := do
  let (str1, skipped) ← skipSpaces L cs str 0
  let (str2, zeroes) ← Base58.countOnes str1 0
  if zeroes ≥ 2^31 then .ub
  else
    let size ← Base58.workSize ((strLen : Int) - (skipped : Int) - (zeroes : Int))
    let b256 := List.replicate size 0#8
    match ← digitLoop L cs size str2 b256 0 with
    | none => pure (buf, 0)
    | some (str3, b256, length) =>
      let str4 ← skipTrailing L cs str3
      let c ← rd str4 0
      if c ≠ 0#8 then pure (buf, 0)
      else
        let it ← Base58.skipZeroes b256 length (size - length)
        let out ← memset buf 0 0#8 zeroes
        let out ← forLoop (Base58.decOut b256 zeroes it) it (size - it) out
        pure (out, zeroes + (size - it))

/-- `fingera_from_base58_check`, src/btc/base58_check.c:33-40. -/
def fromBase58Check (L : Locale) (host : Host) (cs : Bool) (str : List Byte) (strLen : Nat) (buf : List Byte) :
    Res (List Byte × Nat) := do
  let hash := List.replicate 32 0xAA#8
  let (buf, bufSize) ← fromBase58 L cs str strLen buf
  if bufSize < 4 then pure (buf, 0)
  else
    let hash ← BtcHash.hash256 host buf (bufSize - 4) hash
    let same ← memeq hash (buf.drop (bufSize - 4)) 4
    if same then pure (buf, bufSize - 4) else pure (buf, 0)

/-- `isupper(c) ? tolower(c) : c`, src/btc/bech32.c:123; only reached for characters 33..126. -/
def toLower (L : Locale) (c : Byte) : Byte := if L.isupper c then L.tolower c else c

/-- src/btc/bech32.c:122-140, after the separator has been found at offset `pos`. -/
def bech32DecodeAt (L : Locale) (str : List Byte) (strLen pos : Nat) (hrp b32 : List Byte) : Res Bech32.DecodeResult := do
  let hrp ← forLoop (fun i hrp => do wr hrp i (toLower L (← rd str i))) 0 pos hrp
  let n ← untilPtr (pos + 1) (strLen - 6)
  let (b32, good) ← Bech32.decodeChars str (pos + 1) n b32
  if !good then pure ⟨-4, hrp, pos, b32⟩
  else do
    let (checksum, good) ← Bech32.decodeChars str (strLen - 6) 6 (List.replicate 6 0xAA#8)
    if !good then pure ⟨-4, hrp, pos, b32⟩
    else do
      let v ← Bech32.verifyChecksum hrp pos b32 n checksum
      pure ⟨if v then (n : Int) else -5, hrp, pos, b32⟩

/-- `fingera_bech32_decode`, src/btc/bech32.c:111-141. -/
def bech32Decode (L : Locale) (str : List Byte) (strLen : Nat) (hrp : List Byte) (hrpSize : Nat) (b32 : List Byte) :
    Res Bech32.DecodeResult := do
  if ← Bech32.isIllegal str strLen then pure ⟨-1, hrp, hrpSize, b32⟩
  else do
    match ← strrchr str (chr '1') with
    | none => pure ⟨-2, hrp, hrpSize, b32⟩
    | some pos =>
      if strLen > 90 ∨ pos = 0 ∨ pos + 7 > strLen ∨ strLen ≤ 7 then pure ⟨-2, hrp, hrpSize, b32⟩
      else if hrpSize < pos then pure ⟨-3, hrp, hrpSize, b32⟩
      else bech32DecodeAt L str strLen pos hrp b32

/-- `decode_bech32`, src/btc/address.c:95-140. -/
def decodeBech32 (L : Locale) (cs : Bool) (stack : List Byte) (str : List Byte) (strLen : Nat) (out : List Byte)
    (outSize : Nat) (param : ChainParameters) : Res Address.Decoded := do
  let r ← bech32Decode L str strLen (List.replicate 16 0xAA#8) 16 (Address.buffer stack strLen)
  if r.ret < 1 ∨ r.hrpSize ≠ param.bech32HrpSize then pure ⟨.bad, out, outSize⟩
  else do
    let same ← memeq r.hrp param.bech32Hrp r.hrpSize
    if !same then pure ⟨.bad, out, outSize⟩
    else Address.decodeWitness cs r.b32 r.ret.toNat out outSize

/-- `fingera_btc_address_decode`, src/btc/address.c:142-165. -/
def addressDecode (L : Locale) (host : Host) (cs : Bool) (stack : List Byte) (str : List Byte) (strLen : Nat)
    (out : List Byte) (outSize : Nat) (param : ChainParameters) : Res Address.Decoded := do
  if outSize < Base58Check.fromBase58CheckLength strLen then pure ⟨.bad, out, outSize⟩
  else do
    let (out, size) ← fromBase58Check L host cs str strLen out
    if size ≠ 0 then do
      let isPubkey ← Address.hasPrefix out size param.prefixPubkeyAddress param.prefixPubkeyAddressSize
      if isPubkey then Address.strip .pubkey out size param.prefixPubkeyAddressSize
      else do
        let isScript ← Address.hasPrefix out size param.prefixScriptAddress param.prefixScriptAddressSize
        if isScript then Address.strip .script out size param.prefixScriptAddressSize
        else decodeBech32 L cs stack str strLen out outSize param
    else decodeBech32 L cs stack str strLen out outSize param

/-- `fingera_btc_key_from_string`, src/btc/key.c:376-399. -/
def keyFromString (L : Locale) (nd : Bool) (host : Host) (cs : Bool) (str : List Byte) (strLen : Nat) (key32 : List Byte)
    (isCompressed : Int) (param : ChainParameters) : Res Key.FromString := do
  let buf := List.replicate 40 0xAA#8
  assertNd nd (decide (param.prefixSecretKeySize ≤ 8))
  let (buf, size) ← fromBase58Check L host cs str strLen buf
  if size ≤ 32 then pure ⟨false, key32, isCompressed⟩
  else
    let preSize := size - 32
    if param.prefixSecretKeySize ≠ preSize then
      if param.prefixSecretKeySize ≠ preSize - 1 then pure ⟨false, key32, isCompressed⟩
      else do
        let b ← rd buf (size - 1)
        if b ≠ 1#8 then pure ⟨false, key32, isCompressed⟩
        else Key.wifFinish buf key32 1 param
    else Key.wifFinish buf key32 0 param

/-- `fingera_exkey_from_string`, src/btc/exkey.c:101-116. -/
def exkeyFromString (L : Locale) (nd : Bool) (host : Host) (cs : Bool) (str : List Byte) (strLen : Nat) (key : Exkey.ExKey)
    (param : ChainParameters) : Res (Exkey.ExKey × Bool) := do
  let extkey := List.replicate 82 0xAA#8
  assertNd nd (decide (param.prefixExtSecretKeySize ≤ 8))
  let (extkey, size) ← fromBase58Check L host cs str strLen extkey
  assertNd nd (decide (size ≤ 82))
  if size ≤ 74 ∨ size > 82 then pure (key, false)
  else
    let prefixSize := size - 74
    if prefixSize ≠ param.prefixExtSecretKeySize then pure (key, false)
    else do
      let same ← memeq extkey param.prefixExtSecretKey prefixSize
      if !same then pure (key, false)
      else do
        let key ← Exkey.exkeyDecode host (extkey.drop prefixSize) key
        pure (key, true)

/-- `fingera_expubkey_from_string`, src/btc/exkey.c:139-153. -/
def expubkeyFromString (L : Locale) (nd : Bool) (host : Host) (cs : Bool) (str : List Byte) (strLen : Nat) (pub : Exkey.ExPubkey)
    (param : ChainParameters) : Res (Exkey.ExPubkey × Bool) := do
  let extkey := List.replicate 82 0xAA#8
  assertNd nd (decide (param.prefixExtPublicKeySize ≤ 8))
  let (extkey, size) ← fromBase58Check L host cs str strLen extkey
  assertNd nd (decide (size ≤ 82))
  if size ≤ 74 ∨ size > 82 then pure (pub, false)
  else
    let prefixSize := size - 74
    if prefixSize ≠ param.prefixExtPublicKeySize then pure (pub, false)
    else do
      let same ← memeq extkey param.prefixExtPublicKey prefixSize
      if !same then pure (pub, false)
      else do
        let pub ← Exkey.expubkeyDecode host (extkey.drop prefixSize) pub
        pure (pub, true)

end Localized
