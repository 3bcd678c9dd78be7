import Verif.Model.Sha1
import Verif.Model.Address
import Verif.Model.Key
/-!
Functions called with arguments and results that lie in the same memory object, at any offsets: the argument begins at offset `a` of the
object `mem` (the pointer is `obj + a`, so the memory seen through it is `mem.drop a`), the result is written at offset `b`.  The
statements are those of the other models, in the order of the C text; every read of an argument sees what was written before it.
Local arrays of the C functions are objects of their own.
-/
namespace Overlap
open Endian

/-- Call of a function that reaches the object only through the pointer `obj + b`. -/
def at_ (b : Nat) (f : List Byte → Res (List Byte)) (mem : List Byte) : Res (List Byte) := do
  let s ← f (mem.drop b)
  pure (mem.take b ++ s)

/-- The same for functions that also return a value. -/
def atV {α : Type} (b : Nat) (f : List Byte → Res (List Byte × α)) (mem : List Byte) : Res (List Byte × α) := do
  let (s, r) ← f (mem.drop b)
  pure (mem.take b ++ s, r)

/-- `fingera_sha1(obj + a, n, obj + b)`, src/hash/sha1.c 120-152. -/
def sha1 (host : Host) (mem : List Byte) (a n b : Nat) : Res (List Byte) := do
  let chunkEnd := htobe64 host ((BitVec.ofNat 64 n) <<< 3)
  let digest ← HashCommon.finish (Sha1.transform host) 64 55 (bytes64 host chunkEnd) Sha1.iv (mem.drop a) n
  Sha2.storeBig32 host mem b digest

/-- `fingera_ripemd160(obj + a, n, obj + b)`, src/hash/ripemd160.c 286-317. -/
def ripemd160 (host : Host) (mem : List Byte) (a n b : Nat) : Res (List Byte) := do
  let chunkEnd := htole64 host ((BitVec.ofNat 64 n) <<< 3)
  let digest ← HashCommon.finish (Ripemd160.transform host) 64 55 (bytes64 host chunkEnd) Ripemd160.iv (mem.drop a) n
  Ripemd160.storeLittle32 host mem b digest

/-- `fingera_sha2_256(obj + a, n, obj + b)`, src/hash/sha2.c 696-713. -/
def sha2_256 (host : Host) (mem : List Byte) (a n b : Nat) : Res (List Byte) := do
  let digest ← Sha2.sha256Final host Sha2.iv256 (mem.drop a) n 0
  Sha2.storeBig32 host mem b digest

/-- `fingera_sha2_512(obj + a, n, obj + b)`, src/hash/sha2.c 740-758. -/
def sha2_512 (host : Host) (mem : List Byte) (a n b : Nat) : Res (List Byte) := do
  let digest ← Sha2.sha512Final host Sha2.iv512 (mem.drop a) n 0
  Sha2.storeBig64 host mem b digest

/-- `fingera_hmac_sha256(obj + k, kn, obj + a, n, obj + b)`, src/hash/sha2.c 760-803. -/
def hmac_sha256 (host : Host) (mem : List Byte) (k kn a n b : Nat) : Res (List Byte) := do
  let buffer ← Sha2.hmacBuffer256 host (mem.drop k) kn
  let keyInner ← Sha2.xorWords host 0x3636363636363636#64 buffer 8
  let keyOutter ← Sha2.xorWords host 0x5C5C5C5C5C5C5C5C#64 buffer 8
  let inner ← Sha2.sha256Transform host Sha2.iv256 keyInner
  let inner ← Sha2.sha256Final host inner (mem.drop a) n 64
  let innerBytes := (inner.map (htobe32 host)).flatMap (bytes32 host)
  let outter ← Sha2.sha256Transform host Sha2.iv256 keyOutter
  let outter ← Sha2.sha256Final host outter innerBytes 32 64
  Sha2.storeBig32 host mem b outter

/-- `fingera_hmac_sha512(obj + k, kn, obj + a, n, obj + b)`, src/hash/sha2.c 805-849. -/
def hmac_sha512 (host : Host) (mem : List Byte) (k kn a n b : Nat) : Res (List Byte) := do
  let buffer ← Sha2.hmacBuffer512 host (mem.drop k) kn
  let keyInner ← Sha2.xorWords host 0x3636363636363636#64 buffer 16
  let keyOutter ← Sha2.xorWords host 0x5C5C5C5C5C5C5C5C#64 buffer 16
  let inner ← Sha2.sha512Transform host Sha2.iv512 keyInner
  let inner ← Sha2.sha512Final host inner (mem.drop a) n 128
  let innerBytes := (inner.map (htobe64 host)).flatMap (bytes64 host)
  let outter ← Sha2.sha512Transform host Sha2.iv512 keyOutter
  let outter ← Sha2.sha512Final host outter innerBytes 64 128
  Sha2.storeBig64 host mem b outter

/-- `fingera_btc_hash160(obj + a, n, obj + b)`, src/btc/hash.c 8-12. -/
def hash160 (host : Host) (mem : List Byte) (a n b : Nat) : Res (List Byte) := do
  let sha2_digest := List.replicate 32 0xAA#8
  let sha2_digest ← Sha2.sha2_256 host (mem.drop a) n sha2_digest
  at_ b (Ripemd160.ripemd160 host sha2_digest 32) mem

/-- `fingera_btc_hash256(obj + a, n, obj + b)`, src/btc/hash.c 14-18. -/
def hash256 (host : Host) (mem : List Byte) (a n b : Nat) : Res (List Byte) := do
  let sha2_digest := List.replicate 32 0xAA#8
  let sha2_digest ← Sha2.sha2_256 host (mem.drop a) n sha2_digest
  at_ b (Sha2.sha2_256 host sha2_digest 32) mem

/-- `fingera_btc_bip32_hash(obj + c, child, header, obj + d, obj + b)`, src/btc/hash.c 42-53.  Key and result of the HMAC lie in the
object, its message in the local `buffer`: `fingera_hmac_sha512` reads the chain code (sha2.c 822-828) before it writes (sha2.c 845-847). -/
def bip32_hash (host : Host) (mem : List Byte) (c : Nat) (child : U32) (header : Byte) (d b : Nat) : Res (List Byte) := do
  let buffer := List.replicate 37 0xAA#8
  let buffer ← memcpy buffer 0 [header] 1
  let buffer ← memcpy buffer 1 (mem.drop d) 32
  let buffer ← writeBig32 host buffer 33 child
  let key ← Sha2.hmacBuffer512 host (mem.drop c) 32
  let keyInner ← Sha2.xorWords host 0x3636363636363636#64 key 16
  let keyOutter ← Sha2.xorWords host 0x5C5C5C5C5C5C5C5C#64 key 16
  let inner ← Sha2.sha512Transform host Sha2.iv512 keyInner
  let inner ← Sha2.sha512Final host inner buffer 37 128
  let innerBytes := (inner.map (htobe64 host)).flatMap (bytes64 host)
  let outter ← Sha2.sha512Transform host Sha2.iv512 keyOutter
  let outter ← Sha2.sha512Final host outter innerBytes 64 128
  Sha2.storeBig64 host mem b outter

/-- `fingera_to_base58(obj + a, n, obj + b)`, src/base58.c:29-71: the output is written (63-65) when all input has been read. -/
def toBase58 (mem : List Byte) (a n b : Nat) : Res (List Byte × Nat) := do
  let zeroes ← Base58.skipZeroes (mem.drop a) n 0
  let size := (n - zeroes) * 138 / 100 + 1
  if size ≥ 2^31 then .ub
  else
    let b58 := List.replicate size 0#8
    let (b58, length) ← forLoop (Base58.encBody (mem.drop a) size) zeroes (n - zeroes) (b58, 0)
    let iter ← Base58.skipZeroes b58 length (size - length)
    let mem ← memset mem b (chr '1') zeroes
    let mem ← forLoop (Base58.encOut b58 (b + zeroes) iter) iter (size - iter) mem
    pure (mem, zeroes + (size - iter))

/-- `fingera_from_base58(obj + a, n, obj + b)`, src/base58.c:73-126. -/
def fromBase58 (cs : Bool) (mem : List Byte) (a n b : Nat) : Res (List Byte × Nat) := do
  let (str1, skipped) ← Base58.skipSpaces cs (mem.drop a) 0
  let (str2, zeroes) ← Base58.countOnes str1 0
  if zeroes ≥ 2^31 then .ub
  else
    let size ← Base58.workSize ((n : Int) - (skipped : Int) - (zeroes : Int))
    let b256 := List.replicate size 0#8
    match ← Base58.digitLoop cs size str2 b256 0 with
    | none => pure (mem, 0)
    | some (str3, b256, length) =>
      let str4 ← Base58.skipTrailing cs str3
      let c ← rd str4 0
      if c ≠ 0#8 then pure (mem, 0)
      else
        let it ← Base58.skipZeroes b256 length (size - length)
        let mem ← memset mem b 0#8 zeroes
        let mem ← forLoop (Base58.decOut b256 (b + zeroes) it) it (size - it) mem
        pure (mem, zeroes + (size - it))

/-- `fingera_to_base58_check(obj + a, n, prefix, prefix_size, obj + b)`, src/btc/base58_check.c 10-31; the prefix is not part of the
object. -/
def toBase58Check (host : Host) (pre : List Byte) (prefixSize : Nat) (mem : List Byte) (a n b : Nat) : Res (List Byte × Nat) := do
  let hash := List.replicate 32 0xAA#8
  let sizeOfData := n + prefixSize
  let sizeOfAll := sizeOfData + 4
  let buffer := List.replicate sizeOfAll 0xAA#8
  let buffer ← memcpy buffer 0 pre prefixSize
  let buffer ← memcpy buffer prefixSize (mem.drop a) n
  let hash ← BtcHash.hash256 host buffer sizeOfData hash
  let buffer ← memcpy buffer sizeOfData hash 4
  atV b (Base58.toBase58 buffer sizeOfAll) mem

/-- `fingera_from_base58_check(obj + a, n, obj + b)`, src/btc/base58_check.c 33-40. -/
def fromBase58Check (host : Host) (cs : Bool) (mem : List Byte) (a n b : Nat) : Res (List Byte × Nat) := do
  let hash := List.replicate 32 0xAA#8
  let (mem, bufSize) ← fromBase58 cs mem a n b
  if bufSize < 4 then pure (mem, 0)
  else
    let hash ← BtcHash.hash256 host (mem.drop b) (bufSize - 4) hash
    let same ← memeq hash ((mem.drop b).drop (bufSize - 4)) 4
    if same then pure (mem, bufSize - 4) else pure (mem, 0)

/-- `fingera_btc_key_to_string(obj + a, obj + b, is_compressed, param)`, src/btc/key.c:360-375. -/
def keyToString (host : Host) (isCompressed : Bool) (param : ChainParameters) (mem : List Byte) (a b : Nat) :
    Res (List Byte × Nat) :=
  if isCompressed then do
    let buf33 := List.replicate 33 0xAA#8
    let buf33 ← memcpy buf33 0 (mem.drop a) 32
    let buf33 ← wr buf33 32 1#8
    atV b (Base58Check.toBase58Check host buf33 33 param.prefixSecretKey param.prefixSecretKeySize) mem
  else toBase58Check host param.prefixSecretKey param.prefixSecretKeySize mem a 32 b

/-- src/btc/key.c:395-398. -/
def wifFinish (buf mem : List Byte) (b : Nat) (isCompressed : Int) (param : ChainParameters) : Res Key.FromString := do
  let same ← memeq buf param.prefixSecretKey param.prefixSecretKeySize
  if !same then pure ⟨false, mem, isCompressed⟩
  else do
    let mem ← memcpy mem b (buf.drop param.prefixSecretKeySize) 32
    pure ⟨true, mem, isCompressed⟩

/-- `fingera_btc_key_from_string(obj + a, n, obj + b, is_compressed, param)`, src/btc/key.c:376-399; `is_compressed` is not part of the
object.  The member `key32` of the result is the whole object. -/
def keyFromString (nd : Bool) (host : Host) (cs : Bool) (isCompressed : Int) (param : ChainParameters) (mem : List Byte) (a n b : Nat) :
    Res Key.FromString := do
  let buf := List.replicate 40 0xAA#8
  assertNd nd (decide (param.prefixSecretKeySize ≤ 8))
  let (buf, size) ← Base58Check.fromBase58Check host cs (mem.drop a) n buf
  if size ≤ 32 then pure ⟨false, mem, isCompressed⟩
  else
    let preSize := size - 32
    if param.prefixSecretKeySize ≠ preSize then
      if param.prefixSecretKeySize ≠ preSize - 1 then pure ⟨false, mem, isCompressed⟩
      else do
        let c ← rd buf (size - 1)
        if c ≠ 1#8 then pure ⟨false, mem, isCompressed⟩
        else wifFinish buf mem b 1 param
    else wifFinish buf mem b 0 param

/-- `fingera_to_address_pubkey(obj + a, n, obj + b, out_size, param)`, src/btc/address.c:10-20. -/
def toAddressPubkey (host : Host) (outSize : Nat) (param : ChainParameters) (mem : List Byte) (a n b : Nat) : Res (List Byte × Nat) :=
  if outSize < Base58Check.toBase58CheckLength n param.prefixPubkeyAddressSize then .ok (mem, 0)
  else toBase58Check host param.prefixPubkeyAddress param.prefixPubkeyAddressSize mem a n b

/-- `fingera_to_address_script(obj + a, n, obj + b, out_size, param)`, src/btc/address.c:22-32. -/
def toAddressScript (host : Host) (outSize : Nat) (param : ChainParameters) (mem : List Byte) (a n b : Nat) : Res (List Byte × Nat) :=
  if outSize < Base58Check.toBase58CheckLength n param.prefixScriptAddressSize then .ok (mem, 0)
  else toBase58Check host param.prefixScriptAddress param.prefixScriptAddressSize mem a n b

/-- The common part of the witness encoders, src/btc/address.c:41-50, 60-69, 80-92: the program is regrouped into the local array
`buffer`, then the text is written. -/
def witnessEncode (buffer : List Byte) (version : Byte) (outSize : Nat) (param : ChainParameters) (mem : List Byte) (a n b : Nat) :
    Res (List Byte × Nat) := do
  let buffer ← wr buffer 0 version
  let (rest, m) ← Base32.toBase32Raw (mem.drop a) n (buffer.drop 1)
  let buffer := buffer.take 1 ++ rest
  let bufSize := m + 1
  let resultSize := Bech32.encodeLength param.bech32HrpSize bufSize
  if outSize < resultSize then pure (mem, 0)
  else do
    let mem ← at_ b (Bech32.encode param.bech32Hrp param.bech32HrpSize buffer bufSize) mem
    pure (mem, resultSize)

/-- `fingera_to_address_witnessv0_keyhash(obj + a, n, obj + b, out_size, param)`, src/btc/address.c:34-51. -/
def toAddressWitnessV0Keyhash (nd : Bool) (outSize : Nat) (param : ChainParameters) (mem : List Byte) (a n b : Nat) :
    Res (List Byte × Nat) := do
  assertNd nd (n == 20)
  if n ≠ 20 then pure (mem, 0)
  else witnessEncode (List.replicate 64 0xAA#8) 0#8 outSize param mem a n b

/-- `fingera_to_address_witnessv0_scripthash(obj + a, n, obj + b, out_size, param)`, src/btc/address.c:53-70. -/
def toAddressWitnessV0Scripthash (nd : Bool) (outSize : Nat) (param : ChainParameters) (mem : List Byte) (a n b : Nat) :
    Res (List Byte × Nat) := do
  assertNd nd (n == 32)
  if n ≠ 32 then pure (mem, 0)
  else witnessEncode (List.replicate 64 0xAA#8) 0#8 outSize param mem a n b

/-- `fingera_to_address_witness_unknown(obj + a, n, obj + b, out_size, param)`, src/btc/address.c:72-93. -/
def toAddressWitnessUnknown (outSize : Nat) (param : ChainParameters) (mem : List Byte) (a n b : Nat) : Res (List Byte × Nat) := do
  if n < 3 ∨ n > 41 then pure (mem, 0)
  else do
    let version ← rd (mem.drop a) 0
    if version.toNat < 1 ∨ version.toNat > 16 then pure (mem, 0)
    else witnessEncode (List.replicate 128 0xAA#8) version outSize param mem (a + 1) (n - 1) b

/-- src/btc/address.c:111-139: the text has been taken apart into the local arrays; only `out = obj + b` is reached. -/
def decodeWitness (cs : Bool) (buffer : List Byte) (bech32Size : Nat) (mem : List Byte) (b outSize : Nat) : Res Address.Decoded := do
  let d ← Address.decodeWitness cs buffer bech32Size (mem.drop b) outSize
  pure ⟨d.kind, mem.take b ++ d.out, d.outSize⟩

/-- `decode_bech32(obj + a, n, obj + b, out_size, param)`, src/btc/address.c:95-140. -/
def decodeBech32 (cs : Bool) (stack : List Byte) (outSize : Nat) (param : ChainParameters) (mem : List Byte) (a n b : Nat) :
    Res Address.Decoded := do
  let r ← Bech32.decode (mem.drop a) n (List.replicate 16 0xAA#8) 16 (Address.buffer stack n)
  if r.ret < 1 ∨ r.hrpSize ≠ param.bech32HrpSize then pure ⟨.bad, mem, outSize⟩
  else do
    let same ← memeq r.hrp param.bech32Hrp r.hrpSize
    if !same then pure ⟨.bad, mem, outSize⟩
    else decodeWitness cs r.b32 r.ret.toNat mem b outSize

/-- src/btc/address.c:153-155 / 159-161: `memmove` within `out = obj + b`. -/
def strip (kind : Address.Kind) (mem : List Byte) (b size preSize : Nat) : Res Address.Decoded := do
  let d ← Address.strip kind (mem.drop b) size preSize
  pure ⟨d.kind, mem.take b ++ d.out, d.outSize⟩

/-- `fingera_btc_address_decode(obj + a, n, obj + b, out_size, param)`, src/btc/address.c:142-165.  When the text is no Base58Check
text of a known kind it is read once more by `decode_bech32`, after `fingera_from_base58_check` may have written to `out`.  The member
`out` of the result is the whole object. -/
def addressDecode (host : Host) (cs : Bool) (stack : List Byte) (outSize : Nat) (param : ChainParameters) (mem : List Byte)
    (a n b : Nat) : Res Address.Decoded := do
  if outSize < Base58Check.fromBase58CheckLength n then pure ⟨.bad, mem, outSize⟩
  else do
    let (mem, size) ← fromBase58Check host cs mem a n b
    if size ≠ 0 then do
      let isPubkey ← Address.hasPrefix (mem.drop b) size param.prefixPubkeyAddress param.prefixPubkeyAddressSize
      if isPubkey then strip .pubkey mem b size param.prefixPubkeyAddressSize
      else do
        let isScript ← Address.hasPrefix (mem.drop b) size param.prefixScriptAddress param.prefixScriptAddressSize
        if isScript then strip .script mem b size param.prefixScriptAddressSize
        else decodeBech32 cs stack outSize param mem a n b
    else decodeBech32 cs stack outSize param mem a n b

end Overlap
