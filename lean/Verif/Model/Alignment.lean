import Verif.Model.Sha1
import Verif.Model.BtcHash
import Verif.Model.Base58Check
/-!
The hash functions on a machine where a `uint32_t` and a `uint64_t` must lie at addresses that are multiples of the alignment of these
types.  C11 6.3.2.3p7 leaves the conversion of a misaligned address to `uint32_t *` undefined; the machine traps, or the compiler assumes
it does not happen.  The functions are those of the other models; added are the addresses of the output and of the local byte arrays,
whose place the compiler is free to choose, and a check at each conversion of an address to `uint32_t *` or `uint64_t *` (sha1.c 125, 141; ripemd160.c 291, 307; sha2.c 50, 690, 697, 734,
745, 773, 820).  Reads of messages and
blocks go through `memcpy` (`be32`, `be64`, `le32`, endian.h 116-158) and need no alignment.  Local arrays of words (`digest`, `buffer`,
`key_inner`, `key_outter`) are aligned by their declaration.
-/

/-- Alignment of `uint32_t` and `uint64_t`. -/
structure Abi where
  a4 : Nat
  a8 : Nat
deriving DecidableEq, Repr

namespace Alignment
open Endian HashCommon

/-- `(T *)addr`, where `al` is the alignment of `T`. -/
def asPtr (al addr : Nat) : Res Unit := if addr % al = 0 then .ok () else .ub

/-- `HashCommon.finish` with `last_chunk` at the address `chunk`: the length is stored through a `uint64_t *`
(`*(uint64_t *)&last_chunk[B - 8] = chunk_end`, sha1.c 141, ripemd160.c 307, sha2.c 690, 734). -/
def finish {δ : Type} (abi : Abi) (chunk : Nat) (tr : δ → List Byte → Res δ) (B thr : Nat) (chunkEnd : List Byte)
    (digest : δ) (msg : List Byte) (msgLen : Nat) : Res δ := do
  let (digest, buf, n) ← blocks tr B (msgLen + 1) digest msg msgLen
  let last ← memset (List.replicate B 0xAA#8) 0 0#8 B
  let last ← memcpy last 0 buf n
  let last ← wr last n 0x80#8
  let (digest, last) ←
    if n > thr then do
      let digest ← tr digest last
      let last ← memset last 0 0#8 B
      pure (digest, last)
    else pure (digest, last)
  asPtr abi.a8 (chunk + (B - 8))
  let last ← memcpy last (B - 8) chunkEnd 8
  tr digest last

/-- `fingera_sha1`, sha1.c 120-152, `last_chunk` at `chunk`, `hash` at `addr`. -/
def sha1 (abi : Abi) (host : Host) (chunk addr : Nat) (msg : List Byte) (msgLen : Nat) (hash : List Byte) : Res (List Byte) := do
  asPtr abi.a4 addr
  let chunkEnd := htobe64 host ((BitVec.ofNat 64 msgLen) <<< 3)
  let digest ← finish abi chunk (Sha1.transform host) 64 55 (bytes64 host chunkEnd) Sha1.iv msg msgLen
  Sha2.storeBig32 host hash 0 digest

/-- `fingera_ripemd160`, ripemd160.c 286-317. -/
def ripemd160 (abi : Abi) (host : Host) (chunk addr : Nat) (msg : List Byte) (msgLen : Nat) (hash : List Byte) : Res (List Byte) := do
  asPtr abi.a4 addr
  let chunkEnd := htole64 host ((BitVec.ofNat 64 msgLen) <<< 3)
  let digest ← finish abi chunk (Ripemd160.transform host) 64 55 (bytes64 host chunkEnd) Ripemd160.iv msg msgLen
  Ripemd160.storeLittle32 host hash 0 digest

/-- `sha256_final`, sha2.c 671-694. -/
def sha256Final (abi : Abi) (host : Host) (chunk : Nat) (digest : List U32) (msg : List Byte) (msgLen append : Nat) : Res (List U32) :=
  finish abi chunk (Sha2.sha256Transform host) 64 55 (bytes64 host (htobe64 host (Sha2.bitLength msgLen append))) digest msg msgLen

/-- `fingera_sha2_256`, sha2.c 696-713. -/
def sha2_256 (abi : Abi) (host : Host) (chunk addr : Nat) (msg : List Byte) (msgLen : Nat) (hash : List Byte) : Res (List Byte) := do
  asPtr abi.a4 addr
  let digest ← sha256Final abi host chunk Sha2.iv256 msg msgLen 0
  Sha2.storeBig32 host hash 0 digest

/-- `sha512_final`, sha2.c 715-738. -/
def sha512Final (abi : Abi) (host : Host) (chunk : Nat) (digest : List U64) (msg : List Byte) (msgLen append : Nat) : Res (List U64) :=
  finish abi chunk (Sha2.sha512Transform host) 128 111 (bytes64 host (htobe64 host (Sha2.bitLength msgLen append))) digest msg msgLen

/-- `fingera_sha2_512`, sha2.c 740-758. -/
def sha2_512 (abi : Abi) (host : Host) (chunk addr : Nat) (msg : List Byte) (msgLen : Nat) (hash : List Byte) : Res (List Byte) := do
  asPtr abi.a8 addr
  let digest ← sha512Final abi host chunk Sha2.iv512 msg msgLen 0
  Sha2.storeBig64 host hash 0 digest

/-- Filling of `buffer`, sha2.c 775-781: a long key is hashed into `buffer`, an array of `uint64_t` (address 0 stands for it). -/
def hmacBuffer256 (abi : Abi) (host : Host) (chunk : Nat) (key : List Byte) (keyLen : Nat) : Res (List Byte) :=
  if keyLen ≤ 64 then do
    let buffer ← memcpy (List.replicate 64 0xAA#8) 0 key keyLen
    memset buffer keyLen 0#8 (64 - keyLen)
  else do
    let buffer ← sha2_256 abi host chunk 0 key keyLen (List.replicate 64 0xAA#8)
    memset buffer 32 0#8 32

/-- `fingera_hmac_sha256`, sha2.c 760-803.  `kchunk`, `ichunk`, `ochunk`: `last_chunk` in the hash of a long key, in the inner and in
the outer `sha256_final`; `addr`: `hmac`. -/
def hmac_sha256 (abi : Abi) (host : Host) (kchunk ichunk ochunk addr : Nat) (key : List Byte) (keyLen : Nat) (msg : List Byte)
    (msgLen : Nat) (hmac : List Byte) : Res (List Byte) := do
  asPtr abi.a4 addr
  let buffer ← hmacBuffer256 abi host kchunk key keyLen
  let keyInner ← Sha2.xorWords host 0x3636363636363636#64 buffer 8
  let keyOutter ← Sha2.xorWords host 0x5C5C5C5C5C5C5C5C#64 buffer 8
  let inner ← Sha2.sha256Transform host Sha2.iv256 keyInner
  let inner ← sha256Final abi host ichunk inner msg msgLen 64
  let innerBytes := (inner.map (htobe32 host)).flatMap (bytes32 host)
  let outter ← Sha2.sha256Transform host Sha2.iv256 keyOutter
  let outter ← sha256Final abi host ochunk outter innerBytes 32 64
  Sha2.storeBig32 host hmac 0 outter

/-- Filling of `buffer`, sha2.c 822-828. -/
def hmacBuffer512 (abi : Abi) (host : Host) (chunk : Nat) (key : List Byte) (keyLen : Nat) : Res (List Byte) :=
  if keyLen ≤ 128 then do
    let buffer ← memcpy (List.replicate 128 0xAA#8) 0 key keyLen
    memset buffer keyLen 0#8 (128 - keyLen)
  else do
    let buffer ← sha2_512 abi host chunk 0 key keyLen (List.replicate 128 0xAA#8)
    memset buffer 64 0#8 64

/-- `fingera_hmac_sha512`, sha2.c 805-849. -/
def hmac_sha512 (abi : Abi) (host : Host) (kchunk ichunk ochunk addr : Nat) (key : List Byte) (keyLen : Nat) (msg : List Byte)
    (msgLen : Nat) (hmac : List Byte) : Res (List Byte) := do
  asPtr abi.a8 addr
  let buffer ← hmacBuffer512 abi host kchunk key keyLen
  let keyInner ← Sha2.xorWords host 0x3636363636363636#64 buffer 16
  let keyOutter ← Sha2.xorWords host 0x5C5C5C5C5C5C5C5C#64 buffer 16
  let inner ← Sha2.sha512Transform host Sha2.iv512 keyInner
  let inner ← sha512Final abi host ichunk inner msg msgLen 128
  let innerBytes := (inner.map (htobe64 host)).flatMap (bytes64 host)
  let outter ← Sha2.sha512Transform host Sha2.iv512 keyOutter
  let outter ← sha512Final abi host ochunk outter innerBytes 64 128
  Sha2.storeBig64 host hmac 0 outter

/-- `fingera_btc_hash160`, hash.c 8-12: `char sha2_digest[32]` at `dig`; `chunk1`, `chunk2`: `last_chunk` of the two hashes. -/
def hash160 (abi : Abi) (host : Host) (dig chunk1 chunk2 addr : Nat) (msg : List Byte) (msgLen : Nat) (hash : List Byte) :
    Res (List Byte) := do
  let sha2_digest := List.replicate 32 0xAA#8
  let sha2_digest ← sha2_256 abi host chunk1 dig msg msgLen sha2_digest
  ripemd160 abi host chunk2 addr sha2_digest 32 hash

/-- `fingera_btc_hash256`, hash.c 14-18. -/
def hash256 (abi : Abi) (host : Host) (dig chunk1 chunk2 addr : Nat) (msg : List Byte) (msgLen : Nat) (hash : List Byte) :
    Res (List Byte) := do
  let sha2_digest := List.replicate 32 0xAA#8
  let sha2_digest ← sha2_256 abi host chunk1 dig msg msgLen sha2_digest
  sha2_256 abi host chunk2 addr sha2_digest 32 hash

/-- `fingera_btc_hash256_d64`, hash.c 23-31, output at `addr`: `_hash256_d64_transform` converts the address of its output
(`uint32_t *result = (uint32_t *)out`, sha2.c 50). -/
def hash256_d64 (abi : Abi) (host : Host) (addr : Nat) (out inp : List Byte) (blocks : Nat) : Res (List Byte) :=
  forLoop (fun i out => do
    asPtr abi.a4 (addr + 32 * i)
    let o ← Sha2.d64Transform host (out.drop (32 * i)) (inp.drop (64 * i))
    pure (out.take (32 * i) ++ o)) 0 blocks out

/-- `fingera_btc_bip32_hash`, hash.c 42-53 (the chain code of 32 bytes is not hashed first). -/
def bip32_hash (abi : Abi) (host : Host) (ichunk ochunk addr : Nat) (chainCode : List Byte) (child : U32) (header : Byte)
    (data32 : List Byte) (out64 : List Byte) : Res (List Byte) := do
  let buffer := List.replicate 37 0xAA#8
  let buffer ← memcpy buffer 0 [header] 1
  let buffer ← memcpy buffer 1 data32 32
  let buffer ← writeBig32 host buffer 33 child
  hmac_sha512 abi host 0 ichunk ochunk addr chainCode 32 buffer 37 out64

/-- The places of the byte arrays involved in a Base58Check conversion: `hash[32]` (base58_check.c 13 / 34), `sha2_digest` and the two
`last_chunk` of `fingera_btc_hash256`. -/
structure Places where
  hash : Nat
  dig : Nat
  chunk1 : Nat
  chunk2 : Nat
deriving DecidableEq, Repr

/-- `fingera_to_base58_check`, base58_check.c 10-31. -/
def toBase58Check (abi : Abi) (pl : Places) (host : Host) (buf : List Byte) (bufSize : Nat) (pre : List Byte) (prefixSize : Nat)
    (str : List Byte) : Res (List Byte × Nat) := do
  let hash := List.replicate 32 0xAA#8
  let sizeOfData := bufSize + prefixSize
  let sizeOfAll := sizeOfData + 4
  let buffer := List.replicate sizeOfAll 0xAA#8
  let buffer ← memcpy buffer 0 pre prefixSize
  let buffer ← memcpy buffer prefixSize buf bufSize
  let hash ← hash256 abi host pl.dig pl.chunk1 pl.chunk2 pl.hash buffer sizeOfData hash
  let buffer ← memcpy buffer sizeOfData hash 4
  Base58.toBase58 buffer sizeOfAll str

/-- `fingera_from_base58_check`, base58_check.c 33-40. -/
def fromBase58Check (abi : Abi) (pl : Places) (host : Host) (cs : Bool) (str : List Byte) (strLen : Nat) (buf : List Byte) :
    Res (List Byte × Nat) := do
  let hash := List.replicate 32 0xAA#8
  let (buf, bufSize) ← Base58.fromBase58 cs str strLen buf
  if bufSize < 4 then pure (buf, 0)
  else
    let hash ← hash256 abi host pl.dig pl.chunk1 pl.chunk2 pl.hash buf (bufSize - 4) hash
    let same ← memeq hash (buf.drop (bufSize - 4)) 4
    if same then pure (buf, bufSize - 4) else pure (buf, 0)

end Alignment
