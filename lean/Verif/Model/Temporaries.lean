import Verif.Model.Address
import Verif.Model.Exkey
import Verif.Model.KeyContext
import Verif.Model.Sha1
/-!
The temporaries of the library: heap blocks and local arrays, with the bytes they contain at the moment they are given back.

The functions here are those of the other model files once more, with a log.  What they compute is proved to be the same
(`Verif.Lemmas.Temporaries`), so only the log is new.  Logged are the blocks and arrays into which a function copies its input
or values computed from it; scalars and registers (the working variables of the hash transforms, loop counters) are not, nor
are the temporaries inside libsecp256k1.  The log follows normal returns only: a failed `assert` ends the process.
-/
namespace Temporaries
open Random Endian HashCommon

/-- What happens to a temporary. -/
inductive Event where
  /-- `malloc` returned block number `p`. -/
  | malloc (p size : Nat)
  /-- `free` of block `p`, which at that moment has these contents. -/
  | free (name : String) (p : Nat) (contents : List Byte)
  /-- The function that declared a local array returns; these are the contents it leaves on the stack. -/
  | dies (name : String) (contents : List Byte)
deriving DecidableEq, Repr

/-- Number of blocks allocated so far. -/
def mallocs : List Event → Nat
  | [] => 0
  | .malloc _ _ :: r => mallocs r + 1
  | _ :: r => mallocs r

/-- Computations with a log. -/
def Tr (α : Type) : Type := List Event → Res (α × List Event)

instance : Monad Tr where
  pure a := fun log => .ok (a, log)
  bind t f := fun log => (t log).bind fun p => f p.1 p.2

instance : MonadLift Res Tr where
  monadLift m := fun log => m.bind fun a => .ok (a, log)

/-- A local array dies. -/
def die (name : String) (mem : List Byte) : Tr Unit := fun log => .ok ((), log ++ [.dies name mem])

/-- `DECLARE_BUFFER`, include/fingera_libc/sl/buffer.h:14-24: up to 128 bytes on the stack (`none`), else a new heap block. -/
def declare (size : Nat) : Tr (Option Nat) := fun log =>
  if size ≤ 128 then .ok (none, log) else .ok (some (mallocs log), log ++ [.malloc (mallocs log) size])

/-- `FREE_BUFFER`, buffer.h:25-26, followed by the return of the function. -/
def release (h : Option Nat) (name : String) (mem : List Byte) : Tr Unit := fun log =>
  match h with
  | none => .ok ((), log ++ [.dies name mem])
  | some p => .ok ((), log ++ [.free name p mem])

/-! ### src/base58.c -/
section
open Base58

/-- `fingera_to_base58`, src/base58.c:29-71. -/
def toBase58 (buf : List Byte) (bufSize : Nat) (str : List Byte) : Tr (List Byte × Nat) := do
  let zeroes ← skipZeroes buf bufSize 0
  let size := (bufSize - zeroes) * 138 / 100 + 1
  if size ≥ 2^31 then (Res.ub : Res (List Byte × Nat))
  else do
    let h ← declare size
    let b58 := List.replicate size 0#8
    let (b58, length) ← forLoop (encBody buf size) zeroes (bufSize - zeroes) (b58, 0)
    let iter ← skipZeroes b58 length (size - length)
    let str ← memset str 0 (chr '1') zeroes
    let str ← forLoop (encOut b58 zeroes iter) iter (size - iter) str
    let b58 ← cleanse b58 size
    release h "b58" b58
    pure (str, zeroes + (size - iter))

/-- Digit loop, src/base58.c:90-108: like `Base58.digitLoop`, but the work buffer is returned in the error case, too. -/
def digitLoop (cs : Bool) (size : Nat) : List Byte → List Byte → Nat → Res (List Byte × Option (List Byte × Nat))
  | [], _, _ => .ub
  | c :: r, b256, length => do
    if c = 0#8 then pure (b256, some (c :: r, length))
    else if ← isspace cs c then pure (b256, some (c :: r, length))
    else
      let v ← rd BASE58_DECODE c.toNat
      if v = -1 then pure (b256, none)
      else
        let (b256, i, carry) ← carryLoop 256 58 length size 0 v.toNat b256
        assertC (carry == 0)
        digitLoop cs size r b256 i

/-- `fingera_from_base58`, src/base58.c:73-126. -/
def fromBase58 (cs : Bool) (str : List Byte) (strLen : Nat) (buf : List Byte) : Tr (List Byte × Nat) := do
  let (str1, skipped) ← skipSpaces cs str 0
  let (str2, zeroes) ← countOnes str1 0
  if zeroes ≥ 2^31 then (Res.ub : Res (List Byte × Nat))
  else do
    let size ← workSize ((strLen : Int) - (skipped : Int) - (zeroes : Int))
    let h ← declare size
    let b256 := List.replicate size 0#8
    let (b256, found) ← digitLoop cs size str2 b256 0
    match found with
    | none => do
      -- 94-96
      let b256 ← cleanse b256 size
      release h "b256" b256
      pure (buf, 0)
    | some (str3, length) => do
      let str4 ← skipTrailing cs str3
      let c ← rd str4 0
      if c ≠ 0#8 then do
        -- 112-114
        let b256 ← cleanse b256 size
        release h "b256" b256
        pure (buf, 0)
      else do
        let it ← skipZeroes b256 length (size - length)
        let out ← memset buf 0 0#8 zeroes
        let out ← forLoop (decOut b256 zeroes it) it (size - it) out
        -- 123-125
        let b256 ← cleanse b256 size
        release h "b256" b256
        pure (out, zeroes + (size - it))

end

/-! ### src/hash -/

/-- `HashCommon.finish` (sha2.c 681-693, 725-737; sha1.c 132-142 and 151; ripemd160.c 298-308 and 317). -/
def finish {δ : Type} (tr : δ → List Byte → Res δ) (B thr : Nat) (chunkEnd : List Byte)
    (digest : δ) (msg : List Byte) (msgLen : Nat) : Tr δ := do
  let (digest, buf, n) ← blocks tr B (msgLen + 1) digest msg msgLen
  let last ← memset (List.replicate B 0xAA#8) 0 0#8 B
  let last ← memcpy last 0 buf n
  let last ← wr last n 0x80#8
  let (digest, last) ←
    if n > thr then do
      let digest ← tr digest last
      let last ← memset last 0 0#8 B
      pure (digest, last)
    else (pure (digest, last) : Res (δ × List Byte))
  let last ← memcpy last (B - 8) chunkEnd 8
  let digest ← tr digest last
  let last ← cleanse last B
  die "last_chunk" last
  pure digest

/-- `sha256_final`, sha2.c 671-694. -/
def sha256Final (host : Host) (digest : List U32) (msg : List Byte) (msgLen append : Nat) : Tr (List U32) :=
  finish (Sha2.sha256Transform host) 64 55 (bytes64 host (htobe64 host (Sha2.bitLength msgLen append)))
    digest msg msgLen

/-- `fingera_cleanse(digest, sizeof(digest))` for an array of 32-bit words. -/
def dieWords32 (host : Host) (name : String) (digest : List U32) : Tr Unit := do
  let mem := digest.flatMap (bytes32 host)
  let mem ← cleanse mem mem.length
  die name mem

/-- The same for an array of 64-bit words. -/
def dieWords64 (host : Host) (name : String) (digest : List U64) : Tr Unit := do
  let mem := digest.flatMap (bytes64 host)
  let mem ← cleanse mem mem.length
  die name mem

/-- `fingera_sha2_256`, sha2.c 696-713. -/
def sha2_256 (host : Host) (msg : List Byte) (msgLen : Nat) (hash : List Byte) : Tr (List Byte) := do
  let digest ← sha256Final host Sha2.iv256 msg msgLen 0
  let hash ← Sha2.storeBig32 host hash 0 digest
  dieWords32 host "digest" digest
  pure hash

/-- `sha512_final`, sha2.c 715-738. -/
def sha512Final (host : Host) (digest : List U64) (msg : List Byte) (msgLen append : Nat) : Tr (List U64) :=
  finish (Sha2.sha512Transform host) 128 111 (bytes64 host (htobe64 host (Sha2.bitLength msgLen append)))
    digest msg msgLen

/-- `fingera_sha2_512`, sha2.c 740-758. -/
def sha2_512 (host : Host) (msg : List Byte) (msgLen : Nat) (hash : List Byte) : Tr (List Byte) := do
  let digest ← sha512Final host Sha2.iv512 msg msgLen 0
  let hash ← Sha2.storeBig64 host hash 0 digest
  dieWords64 host "digest" digest
  pure hash

/-- `fingera_sha1`, sha1.c 120-152. -/
def sha1 (host : Host) (msg : List Byte) (msgLen : Nat) (hash : List Byte) : Tr (List Byte) := do
  let chunkEnd := htobe64 host ((BitVec.ofNat 64 msgLen) <<< 3)
  let digest ← finish (Sha1.transform host) 64 55 (bytes64 host chunkEnd) Sha1.iv msg msgLen
  let hash ← Sha2.storeBig32 host hash 0 digest
  dieWords32 host "digest" digest
  pure hash

/-- `fingera_ripemd160`, ripemd160.c 286-318. -/
def ripemd160 (host : Host) (msg : List Byte) (msgLen : Nat) (hash : List Byte) : Tr (List Byte) := do
  let chunkEnd := htole64 host ((BitVec.ofNat 64 msgLen) <<< 3)
  let digest ← finish (Ripemd160.transform host) 64 55 (bytes64 host chunkEnd) Ripemd160.iv msg msgLen
  let hash ← Ripemd160.storeLittle32 host hash 0 digest
  dieWords32 host "digest" digest
  pure hash

/-- Filling of `buffer` in `fingera_hmac_sha256`, sha2.c 775-781. -/
def hmacBuffer256 (host : Host) (key : List Byte) (keyLen : Nat) : Tr (List Byte) :=
  if keyLen ≤ 64 then do
    let buffer ← memcpy (List.replicate 64 0xAA#8) 0 key keyLen
    memset buffer keyLen 0#8 (64 - keyLen)
  else do
    let buffer ← sha2_256 host key keyLen (List.replicate 64 0xAA#8)
    memset buffer 32 0#8 32

/-- `fingera_hmac_sha256`, sha2.c 760-803: the digests are wiped, `buffer`, `key_inner` and `key_outter` are not. -/
def hmac_sha256 (host : Host) (key : List Byte) (keyLen : Nat) (msg : List Byte) (msgLen : Nat)
    (hmac : List Byte) : Tr (List Byte) := do
  let buffer ← hmacBuffer256 host key keyLen
  let keyInner ← Sha2.xorWords host 0x3636363636363636#64 buffer 8
  let keyOutter ← Sha2.xorWords host 0x5C5C5C5C5C5C5C5C#64 buffer 8
  let inner ← Sha2.sha256Transform host Sha2.iv256 keyInner
  let inner ← sha256Final host inner msg msgLen 64
  let innerBytes := (inner.map (htobe32 host)).flatMap (bytes32 host)
  let outter ← Sha2.sha256Transform host Sha2.iv256 keyOutter
  let outter ← sha256Final host outter innerBytes 32 64
  let hmac ← Sha2.storeBig32 host hmac 0 outter
  dieWords32 host "digest_outter" outter
  dieWords32 host "digest_inner" (inner.map (htobe32 host))
  die "buffer" buffer
  die "key_inner" keyInner
  die "key_outter" keyOutter
  pure hmac

/-- Filling of `buffer` in `fingera_hmac_sha512`, sha2.c 822-828. -/
def hmacBuffer512 (host : Host) (key : List Byte) (keyLen : Nat) : Tr (List Byte) :=
  if keyLen ≤ 128 then do
    let buffer ← memcpy (List.replicate 128 0xAA#8) 0 key keyLen
    memset buffer keyLen 0#8 (128 - keyLen)
  else do
    let buffer ← sha2_512 host key keyLen (List.replicate 128 0xAA#8)
    memset buffer 64 0#8 64

/-- `fingera_hmac_sha512`, sha2.c 805-849. -/
def hmac_sha512 (host : Host) (key : List Byte) (keyLen : Nat) (msg : List Byte) (msgLen : Nat)
    (hmac : List Byte) : Tr (List Byte) := do
  let buffer ← hmacBuffer512 host key keyLen
  let keyInner ← Sha2.xorWords host 0x3636363636363636#64 buffer 16
  let keyOutter ← Sha2.xorWords host 0x5C5C5C5C5C5C5C5C#64 buffer 16
  let inner ← Sha2.sha512Transform host Sha2.iv512 keyInner
  let inner ← sha512Final host inner msg msgLen 128
  let innerBytes := (inner.map (htobe64 host)).flatMap (bytes64 host)
  let outter ← Sha2.sha512Transform host Sha2.iv512 keyOutter
  let outter ← sha512Final host outter innerBytes 64 128
  let hmac ← Sha2.storeBig64 host hmac 0 outter
  dieWords64 host "digest_outter" outter
  dieWords64 host "digest_inner" (inner.map (htobe64 host))
  die "buffer" buffer
  die "key_inner" keyInner
  die "key_outter" keyOutter
  pure hmac

/-! ### src/btc/hash.c and src/btc/base58_check.c -/

/-- `fingera_btc_hash256`, hash.c 14-18: the intermediate digest is not wiped. -/
def hash256 (host : Host) (msg : List Byte) (msgLen : Nat) (hash : List Byte) : Tr (List Byte) := do
  let sha2_digest := List.replicate 32 0xAA#8
  let sha2_digest ← sha2_256 host msg msgLen sha2_digest
  let hash ← sha2_256 host sha2_digest 32 hash
  die "sha2_digest" sha2_digest
  pure hash

/-- `fingera_btc_bip32_hash`, hash.c 42-53. -/
def bip32_hash (host : Host) (chainCode : List Byte) (child : U32) (header : Byte)
    (data32 : List Byte) (out64 : List Byte) : Tr (List Byte) := do
  let buffer := List.replicate 37 0xAA#8
  let buffer ← memcpy buffer 0 [header] 1
  let buffer ← memcpy buffer 1 data32 32
  let buffer ← writeBig32 host buffer 33 child
  let out64 ← hmac_sha512 host chainCode 32 buffer 37 out64
  let buffer ← cleanse buffer 37
  die "bip32 buffer" buffer
  pure out64

/-- `fingera_to_base58_check`, base58_check.c 10-31. -/
def toBase58Check (host : Host) (buf : List Byte) (bufSize : Nat) (pre : List Byte) (prefixSize : Nat)
    (str : List Byte) : Tr (List Byte × Nat) := do
  let hash := List.replicate 32 0xAA#8
  let sizeOfData := bufSize + prefixSize
  let sizeOfAll := sizeOfData + 4
  let h ← declare sizeOfAll
  let buffer := List.replicate sizeOfAll 0xAA#8
  let buffer ← memcpy buffer 0 pre prefixSize
  let buffer ← memcpy buffer prefixSize buf bufSize
  let hash ← hash256 host buffer sizeOfData hash
  let buffer ← memcpy buffer sizeOfData hash 4
  let r ← toBase58 buffer sizeOfAll str
  let buffer ← cleanse buffer sizeOfAll
  release h "check buffer" buffer
  die "hash" hash
  pure r

/-- `fingera_from_base58_check`, base58_check.c 33-40. -/
def fromBase58Check (host : Host) (cs : Bool) (str : List Byte) (strLen : Nat) (buf : List Byte) :
    Tr (List Byte × Nat) := do
  let hash := List.replicate 32 0xAA#8
  let (buf, bufSize) ← fromBase58 cs str strLen buf
  if bufSize < 4 then do
    die "hash" hash
    pure (buf, 0)
  else do
    let hash ← hash256 host buf (bufSize - 4) hash
    let same ← memeq hash (buf.drop (bufSize - 4)) 4
    die "hash" hash
    if same then pure (buf, bufSize - 4) else pure (buf, 0)

/-! ### src/btc/address.c -/

/-- src/btc/address.c:111-139, `Address.decodeWitness` with a `FREE_BUFFER` before each `return`. -/
def decodeWitness (h : Option Nat) (cs : Bool) (buffer : List Byte) (bech32Size : Nat) (out : List Byte) (outSize : Nat) :
    Tr Address.Decoded := do
  let need ← Base32.fromBase32RawLength (bech32Size - 1)
  if outSize ≥ need then do
    let version ← rd buffer 0
    if version = 0#8 then do
      let (out, n) ← Base32.fromBase32Raw cs (buffer.drop 1) (bech32Size - 1) out
      if n = 20 then do
        release h "buffer" buffer
        pure ⟨.witnessV0Keyhash, out, n⟩
      else if n = 32 then do
        release h "buffer" buffer
        pure ⟨.witnessV0Scripthash, out, n⟩
      else do
        release h "buffer" buffer
        pure ⟨.bad, out, n⟩
    else do
      let out ← wr out 0 version
      let (rest, n) ← Base32.fromBase32Raw cs (buffer.drop 1) (bech32Size - 1) (out.drop 1)
      let out := out.take 1 ++ rest
      let n := n + 1
      if version.toNat > 16 ∨ n < 3 ∨ n > 41 then do
        release h "buffer" buffer
        pure ⟨.bad, out, n⟩
      else do
        release h "buffer" buffer
        pure ⟨.witnessUnknown, out, n⟩
  else do
    release h "buffer" buffer
    pure ⟨.bad, out, outSize⟩

/-- `decode_bech32`, src/btc/address.c:95-140.  A size that wrapped around (`str_len < 7`) makes `malloc` return NULL, which
`free` ignores; nothing is logged then.  The temporary holds an address only and is not wiped. -/
def decodeBech32 (cs : Bool) (stack : List Byte) (str : List Byte) (strLen : Nat) (out : List Byte)
    (outSize : Nat) (param : ChainParameters) : Tr Address.Decoded := do
  let h ← if 7 ≤ strLen then declare (strLen - 7) else pure none
  let r ← Bech32.decode str strLen (List.replicate 16 0xAA#8) 16 (Address.buffer stack strLen)
  if r.ret < 1 ∨ r.hrpSize ≠ param.bech32HrpSize then do
    release h "buffer" r.b32
    pure ⟨.bad, out, outSize⟩
  else do
    let same ← memeq r.hrp param.bech32Hrp r.hrpSize
    if !same then do
      release h "buffer" r.b32
      pure ⟨.bad, out, outSize⟩
    else decodeWitness h cs r.b32 r.ret.toNat out outSize

/-- `fingera_btc_address_decode`, src/btc/address.c:142-165. -/
def addressDecode (host : Host) (cs : Bool) (stack : List Byte) (str : List Byte) (strLen : Nat)
    (out : List Byte) (outSize : Nat) (param : ChainParameters) : Tr Address.Decoded := do
  if outSize < Base58Check.fromBase58CheckLength strLen then pure ⟨.bad, out, outSize⟩
  else do
    let (out, size) ← fromBase58Check host cs str strLen out
    if size ≠ 0 then do
      let isPubkey ← Address.hasPrefix out size param.prefixPubkeyAddress param.prefixPubkeyAddressSize
      if isPubkey then Address.strip .pubkey out size param.prefixPubkeyAddressSize
      else do
        let isScript ← Address.hasPrefix out size param.prefixScriptAddress param.prefixScriptAddressSize
        if isScript then Address.strip .script out size param.prefixScriptAddressSize
        else decodeBech32 cs stack str strLen out outSize param
    else decodeBech32 cs stack str strLen out outSize param

/-! ### src/btc/key.c -/

/-- `fingera_btc_key_init`, src/btc/key.c:332-343. -/
def keyInit (nd : Bool) (os : Os) (s : KeyContext.State) : Tr (Option KeyContext.State) := do
  assertNd nd s.verify.isNone
  let (v, s) := KeyContext.create .verify s
  let s := { s with verify := some v }
  assertNd nd s.sign.isNone
  let (c, s) := KeyContext.create .sign s
  let s := { s with sign := some c }
  match ← osRandBytes os (List.replicate 32 0xAA#8) 32 with
  | none => pure none
  | some (rand, _) => do
    KeyContext.libCall s.sign (some .sign) s
    let rand ← cleanse rand 32
    die "rand_buffer" rand
    pure (some s)

/-- `fingera_btc_key_to_string`, src/btc/key.c:360-375. -/
def keyToString (host : Host) (key32 str : List Byte) (isCompressed : Bool) (param : ChainParameters) :
    Tr (List Byte × Nat) :=
  if isCompressed then do
    let buf33 := List.replicate 33 0xAA#8
    let buf33 ← memcpy buf33 0 key32 32
    let buf33 ← wr buf33 32 1#8
    let r ← toBase58Check host buf33 33 param.prefixSecretKey param.prefixSecretKeySize str
    let buf33 ← cleanse buf33 33
    die "buf33" buf33
    pure r
  else toBase58Check host key32 32 param.prefixSecretKey param.prefixSecretKeySize str

/-- `fingera_btc_key_from_string`, src/btc/key.c:376-399: `buf` is not wiped on any path. -/
def keyFromString (nd : Bool) (host : Host) (cs : Bool) (str : List Byte) (strLen : Nat) (key32 : List Byte)
    (isCompressed : Int) (param : ChainParameters) : Tr Key.FromString := do
  let buf := List.replicate 40 0xAA#8
  assertNd nd (decide (param.prefixSecretKeySize ≤ 8))
  let (buf, size) ← fromBase58Check host cs str strLen buf
  if size ≤ 32 then do
    die "buf" buf
    pure ⟨false, key32, isCompressed⟩
  else do
    let preSize := size - 32
    if param.prefixSecretKeySize ≠ preSize then
      if param.prefixSecretKeySize ≠ preSize - 1 then do
        die "buf" buf
        pure ⟨false, key32, isCompressed⟩
      else do
        let b ← rd buf (size - 1)
        if b ≠ 1#8 then do
          die "buf" buf
          pure ⟨false, key32, isCompressed⟩
        else do
          let r ← Key.wifFinish buf key32 1 param
          die "buf" buf
          pure r
    else do
      let r ← Key.wifFinish buf key32 0 param
      die "buf" buf
      pure r

/-- src/btc/key.c:405-417.  `pubkey64` is opaque to the library's user; its 64 bytes before the wiping are not modelled. -/
def deriveHash (nd : Bool) (host : Host) (key32 chain32 : List Byte) (child : U32) :
    Tr (List Byte × Bool) := do
  let out := List.replicate 64 0xAA#8
  if child >>> 31 = 0#32 then do
    let enc := List.replicate 33 0xAA#8
    let pk ← Key.keyGetPub nd key32
    let (enc, ret) ← Key.pubkeyEncode nd pk enc 33
    let header ← rd enc 0
    let out ← bip32_hash host chain32 child header (enc.drop 1) out
    let pubkey64 ← cleanse (List.replicate 64 0xAA#8) 64
    let enc ← cleanse enc 33
    die "pubkey64" pubkey64
    die "encoded_pubkey" enc
    pure (out, ret)
  else do
    let out ← bip32_hash host chain32 child 0#8 key32 out
    pure (out, true)

/-- `fingera_btc_key_derive`, src/btc/key.c:401-426. -/
def keyDerive (nd : Bool) (host : Host) (key32 chain32 outKey outChain : List Byte) (child : U32) :
    Tr Key.Derived := do
  let (out, ret) ← deriveHash nd host key32 chain32 child
  if ret then do
    let outKey ← memcpy outKey 0 key32 32
    let outChain ← memcpy outChain 0 (out.drop 32) 32
    let (outKey, ret) ← SecpLib.privkeyTweakAdd outKey out
    let out ← cleanse out 64
    die "out" out
    pure ⟨ret, outKey, outChain⟩
  else do
    let out ← cleanse out 64
    die "out" out
    pure ⟨false, outKey, outChain⟩

/-! ### src/btc/exkey.c -/
section
open Exkey

/-- `fingera_exkey_init`, src/btc/exkey.c:10-22. -/
def exkeyInit (host : Host) (key : ExKey) (seed : List Byte) (len : Nat) : Tr ExKey := do
  let out := List.replicate 64 0xAA#8
  let out ← hmac_sha512 host hashkey 12 seed len out
  let k ← memcpy key.key 0 out 32
  let c ← memcpy key.ext.chainCode 0 (out.drop 32) 32
  let out ← cleanse out 64
  die "out" out
  pure ⟨⟨0#8, 0#32, 0#32, c⟩, k⟩

/-- `fingera_exkey_to_string`, src/btc/exkey.c:90-99. -/
def exkeyToString (host : Host) (key : ExKey) (str : List Byte) (param : ChainParameters) :
    Tr (List Byte × Nat) := do
  let extkey ← exkeyEncode host key (List.replicate 74 0xAA#8)
  let r ← toBase58Check host extkey 74 param.prefixExtSecretKey param.prefixExtSecretKeySize str
  let extkey ← cleanse extkey 74
  die "extkey" extkey
  pure r

/-- `fingera_exkey_from_string`, src/btc/exkey.c:101-116: `extkey` is wiped only before the last return. -/
def exkeyFromString (nd : Bool) (host : Host) (cs : Bool) (str : List Byte) (strLen : Nat) (key : ExKey)
    (param : ChainParameters) : Tr (ExKey × Bool) := do
  let extkey := List.replicate 82 0xAA#8
  assertNd nd (decide (param.prefixExtSecretKeySize ≤ 8))
  let (extkey, size) ← fromBase58Check host cs str strLen extkey
  assertNd nd (decide (size ≤ 82))
  if size ≤ 74 ∨ size > 82 then do
    die "extkey" extkey
    pure (key, false)
  else do
    let prefixSize := size - 74
    if prefixSize ≠ param.prefixExtSecretKeySize then do
      die "extkey" extkey
      pure (key, false)
    else do
      let same ← memeq extkey param.prefixExtSecretKey prefixSize
      if !same then do
        die "extkey" extkey
        pure (key, false)
      else do
        let key ← exkeyDecode host (extkey.drop prefixSize) key
        let extkey ← cleanse extkey 82
        die "extkey" extkey
        pure (key, true)

end
end Temporaries
