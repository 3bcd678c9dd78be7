import Verif.Model.Leakage
import Verif.Model.Exkey
import Verif.Model.Hex

/-!
What an observer of the machine sees (`Verif.Model.Leakage`) of the functions that handle secret keys:
derivation and serialisation of keys, and the texts keys are written as.  libsecp256k1 is taken as a
library whose calls are seen, but not what they do (it is written to be independent of the secrets).
-/
namespace Leakage
open Endian SecpLib Exkey

/-- `assert(c)`, a branch unless `NDEBUG` is defined. -/
def assertL (nd c : Bool) : Leak Unit := seen (if nd then [] else [.branch c]) (assertNd nd c)

/-! ### `src/btc/key.c` and `src/btc/exkey.c`: derivation -/

/-- `fingera_btc_key_get_pub`, key.c:454-461. -/
def keyGetPub (nd : Bool) (key32 : Ptr) : Leak PubObj := do
  let (pk, r) ← seen [.call "secp256k1_ec_pubkey_create"] (pubkeyCreate key32.mem)
  assertL nd r
  pure pk

/-- `fingera_btc_pubkey_encode`, key.c:483-501.  `out_len == encoded_pubkey_len ? r : 0` is a branch. -/
def pubkeyEncode (nd : Bool) (pk : PubObj) (out : List Byte) (len : Nat) : Leak (List Byte × Bool) := do
  assertL nd (len == 65 || len == 33)
  branch (len ≠ 65 ∧ len ≠ 33)
  if len ≠ 65 ∧ len ≠ 33 then pure (out, false)
  else do
    let (out, outLen, r) ← seen [.branch (len = 33), .call "secp256k1_ec_pubkey_serialize"]
      (pubkeySerialize out len pk (len == 33))
    branch (outLen = len)
    let r := if outLen = len then r else false
    assertL nd (outLen == len)
    pure (out, r)

/-- key.c:403-417: the HMAC output, and `ret`. -/
def deriveHash (nd : Bool) (host : Host) (key32 chain32 : Ptr) (child : U32) : Leak (List Byte × Bool) := do
  let out := List.replicate 64 0xAA#8
  branch (child >>> 31 = 0#32)
  if child >>> 31 = 0#32 then do
    let enc := List.replicate 33 0xAA#8
    let pk ← keyGetPub nd key32
    let (enc, ret) ← pubkeyEncode nd pk enc 33
    let header ← seen [.load "encoded_pubkey" 0 1] (rd enc 0)
    let out ← bip32_hash host chain32 child header ⟨"encoded_pubkey", 1, enc.drop 1⟩ "out" out
    cleanseL "pubkey64" 64
    cleanseL "encoded_pubkey" 33
    pure (out, ret)
  else do
    let out ← bip32_hash host chain32 child 0#8 key32 "out" out
    pure (out, true)

/-- `fingera_btc_key_derive`, key.c:401-426. -/
def keyDerive (nd : Bool) (host : Host) (key32 chain32 : Ptr) (outKey outChain : List Byte) (child : U32) :
    Leak Key.Derived := do
  let (out, ret) ← deriveHash nd host key32 chain32 child
  branch ret
  if ret then do
    let outKey ← memcpyL "out_key32" outKey 0 key32 32
    let outChain ← memcpyL "out_chain32" outChain 0 ⟨"out", 32, out.drop 32⟩ 32
    let (outKey, ret) ← seen [.call "secp256k1_ec_privkey_tweak_add"] (privkeyTweakAdd outKey out)
    cleanseL "out" 64
    pure ⟨ret, outKey, outChain⟩
  else do
    cleanseL "out" 64
    pure ⟨false, outKey, outChain⟩

/-- `fingera_exkey_init`, exkey.c:10-22. -/
def exkeyInit (host : Host) (key : ExKey) (seed : Ptr) (len : Nat) : Leak ExKey := do
  let out := List.replicate 64 0xAA#8
  let out ← hmac_sha512 host ⟨"hashkey", 0, hashkey⟩ 12 seed len "out" out
  seen [.store "key.ext.depth" 0 1, .store "key.ext.child" 0 4, .store "key.ext.fingerprint" 0 4] (.ok ())
  let k ← memcpyL "key.key" key.key 0 ⟨"out", 0, out⟩ 32
  let c ← memcpyL "key.ext.chain_code" key.ext.chainCode 0 ⟨"out", 32, out.drop 32⟩ 32
  cleanseL "out" 64
  pure ⟨⟨0#8, 0#32, 0#32, c⟩, k⟩

/-- `fingera_exkey_derive`, exkey.c:24-34. -/
def exkeyDerive (nd : Bool) (host : Host) (key derived : ExKey) (child fingerprint : U32) :
    Leak (ExKey × Bool) := do
  let r ← keyDerive nd host ⟨"key.key", 0, key.key⟩ ⟨"key.ext.chain_code", 0, key.ext.chainCode⟩
    derived.key derived.ext.chainCode child
  let derived : ExKey := ⟨{ derived.ext with chainCode := r.chain }, r.key⟩
  branch r.ok
  if r.ok then do
    seen [.store "derived.ext.fingerprint" 0 4, .load "key.ext.depth" 0 1, .store "derived.ext.depth" 0 1,
      .store "derived.ext.child" 0 4] (.ok ())
    pure (⟨⟨key.ext.depth + 1#8, fingerprint, child, derived.ext.chainCode⟩, derived.key⟩, true)
  else pure (derived, false)

/-- `fingera_exkey_encode`, exkey.c:77-82 with `write_key_extension`, exkey.c:59-66. -/
def exkeyEncode (host : Host) (key : ExKey) (dst : String) (code : List Byte) : Leak (List Byte) := do
  let code ← seen [.load "key.ext.depth" 0 1, .store dst 0 1] (wr code 0 key.ext.depth)
  let code ← seen [.load "key.ext.fingerprint" 0 4, .store dst 1 4] (writeLittle32 host code 1 key.ext.fingerprint)
  let code ← seen [.load "key.ext.child" 0 4, .store dst 5 4] (writeBig32 host code 5 key.ext.child)
  let code ← memcpyL dst code 9 ⟨"key.ext.chain_code", 0, key.ext.chainCode⟩ 32
  let code ← seen [.store dst 41 1] (wr code 41 0#8)
  memcpyL dst code 42 ⟨"key.key", 0, key.key⟩ 32

/-- `fingera_exkey_decode`, exkey.c:84-88 with `read_key_extension`, exkey.c:68-75. -/
def exkeyDecode (host : Host) (code : Ptr) (key : ExKey) : Leak ExKey := do
  let depth ← seen [.load code.obj code.base 1, .store "key.ext.depth" 0 1] (rd code.mem 0)
  let fingerprint ← seen [.load code.obj (code.base + 1) 4, .store "key.ext.fingerprint" 0 4]
    (readLittle32 host code.mem 1)
  let child ← seen [.load code.obj (code.base + 5) 4, .store "key.ext.child" 0 4] (readBig32 host code.mem 5)
  let chainCode ← memcpyL "key.ext.chain_code" key.ext.chainCode 0 (code.add 9) 32
  let k ← memcpyL "key.key" key.key 0 (code.add 42) 32
  pure ⟨⟨depth, fingerprint, child, chainCode⟩, k⟩

/-! ### Texts -/

/-- The array `hex_str` points to, hex.c:14. -/
def hexTable (upper : Bool) : String := if upper then "HEX_STRING_UPPER" else "HEX_STRING_LOWER"

/-- The loop of `fingera_to_hex`, hex.c:15-20, from round `i` on, `k` rounds to go; `str` has advanced by
`2 * i`. -/
def hexLoop (buf : Ptr) (upper : Bool) (i : Nat) : Nat → List Byte → Leak (List Byte)
  | 0, str => do
    branch false
    pure str
  | k+1, str => do
    branch true
    let byte ← seen [.load buf.obj (buf.base + i) 1] (rd buf.mem i)
    let hi ← seen [.load (hexTable upper) (byte >>> 4).toNat 1] (rd (Hex.hexStr upper) (byte >>> 4).toNat)
    let str ← seen [.store "str" (2 * i) 1] (wr str (2 * i) hi)
    let lo ← seen [.load (hexTable upper) (byte &&& 0xF).toNat 1] (rd (Hex.hexStr upper) (byte &&& 0xF).toNat)
    let str ← seen [.store "str" (2 * i + 1) 1] (wr str (2 * i + 1) lo)
    hexLoop buf upper (i + 1) k str

/-- `fingera_to_hex`, hex.c:11-21. -/
def toHex (buf : Ptr) (bufSize : Nat) (str : List Byte) (upper : Bool) : Leak (List Byte) := do
  branch upper
  hexLoop buf upper 0 bufSize str

/-- `DECLARE_BUFFER` and `FREE_BUFFER`, sl/buffer.h:14-28: in each a branch. -/
def onStack (size : Nat) : Leak Unit := branch (size ≤ 128)

/-- `while (p != end && *p == 0) p++`, base58.c:34-37 and 61. -/
def skipZeroes (buf : Ptr) : Nat → Nat → Leak Nat
  | 0, p => do
    branch false
    pure p
  | k+1, p => do
    branch true
    let b ← seen [.load buf.obj (buf.base + p) 1] (rd buf.mem p)
    branch (b = 0#8)
    if b = 0#8 then skipZeroes buf k (p+1) else pure p

/-- The carry loop, base58.c:48-53.  The test is `(carry != 0 || i < length) && it >= 0`; first recursive
argument: `it + 1`. -/
def carryLoop (base mul length : Nat) (obj : String) : Nat → Nat → Nat → List Byte →
    Leak (List Byte × Nat × Nat)
  | 0, i, carry, buf => do
    seen ([.branch (carry ≠ 0)] ++ (if carry ≠ 0 then [] else [.branch (i < length)]) ++
      (if carry ≠ 0 ∨ i < length then [.branch false] else [])) (.ok ())
    pure (buf, i, carry)
  | it+1, i, carry, buf => do
    seen ([.branch (carry ≠ 0)] ++ (if carry ≠ 0 then [] else [.branch (i < length)])) (.ok ())
    if carry ≠ 0 ∨ i < length then
      let d ← seen [.branch true, .load obj it 1] (rd buf it)
      let carry := carry + mul * d.toNat
      if carry ≥ 2^31 then .ub
      else
        let buf ← seen [.store obj it 1] (wr buf it (BitVec.ofNat 8 (carry % base)))
        carryLoop base mul length obj it (i+1) (carry / base) buf
    else pure (buf, i, carry)

/-- base58.c:44-57, from offset `p` on, `k` bytes to go. -/
def encLoop (buf : Ptr) (size : Nat) (p : Nat) : Nat → List Byte × Nat → Leak (List Byte × Nat)
  | 0, st => do
    branch false
    pure st
  | k+1, st => do
    branch true
    let b ← seen [.load buf.obj (buf.base + p) 1] (rd buf.mem p)
    let (b58, i, carry) ← carryLoop 58 256 st.2 "b58" size 0 b.toNat st.1
    seen [.branch (carry = 0)] (assertC (carry == 0))
    encLoop buf size (p + 1) k (b58, i)

/-- base58.c:65 from `iter` on, `k` digits to go; `pos` is the current `zeroes`. -/
def outLoop (b58 : List Byte) (iter pos : Nat) : Nat → List Byte → Leak (List Byte)
  | 0, str => do
    branch false
    pure str
  | k+1, str => do
    branch true
    let d ← seen [.load "b58" iter 1] (rd b58 iter)
    let c ← seen [.load "BASE58_ENCODE" d.toNat 1] (rd Base58.BASE58_ENCODE d.toNat)
    let str ← seen [.store "str" pos 1] (wr str pos c)
    outLoop b58 (iter + 1) (pos + 1) k str

/-- `fingera_to_base58`, base58.c:29-71. -/
def toBase58 (buf : Ptr) (bufSize : Nat) (str : List Byte) : Leak (List Byte × Nat) := do
  let zeroes ← skipZeroes buf bufSize 0
  let size := (bufSize - zeroes) * 138 / 100 + 1
  if size ≥ 2^31 then .ub
  else
    onStack size
    let b58 ← seen [.store "b58" 0 size] (.ok (List.replicate size 0#8))
    let (b58, length) ← encLoop buf size zeroes (bufSize - zeroes) (b58, 0)
    let iter ← skipZeroes ⟨"b58", 0, b58⟩ length (size - length)
    let str ← memsetL "str" str 0 (chr '1') zeroes
    let str ← outLoop b58 iter zeroes (size - iter) str
    cleanseL "b58" size
    onStack size
    pure (str, zeroes + (size - iter))

/-- `fingera_to_base58_check`, base58_check.c:10-31. -/
def toBase58Check (host : Host) (buf : Ptr) (bufSize : Nat) (pre : List Byte) (prefixSize : Nat)
    (str : List Byte) : Leak (List Byte × Nat) := do
  let sizeOfData := bufSize + prefixSize
  let sizeOfAll := sizeOfData + 4
  onStack sizeOfAll
  let buffer := List.replicate sizeOfAll 0xAA#8
  let buffer ← memcpyL "buffer" buffer 0 ⟨"prefix", 0, pre⟩ prefixSize
  let buffer ← memcpyL "buffer" buffer prefixSize buf bufSize
  let hash ← hash256 host ⟨"buffer", 0, buffer⟩ sizeOfData "hash" (List.replicate 32 0xAA#8)
  let buffer ← memcpyL "buffer" buffer sizeOfData ⟨"hash", 0, hash⟩ 4
  let r ← toBase58 ⟨"buffer", 0, buffer⟩ sizeOfAll str
  cleanseL "buffer" sizeOfAll
  onStack sizeOfAll
  pure r

/-- `fingera_btc_key_to_string`, key.c:360-375. -/
def keyToString (host : Host) (key32 : Ptr) (str : List Byte) (isCompressed : Bool) (param : ChainParameters) :
    Leak (List Byte × Nat) := do
  branch isCompressed
  if isCompressed then do
    let buf33 ← memcpyL "buf33" (List.replicate 33 0xAA#8) 0 key32 32
    let buf33 ← seen [.store "buf33" 32 1] (wr buf33 32 1#8)
    let r ← toBase58Check host ⟨"buf33", 0, buf33⟩ 33 param.prefixSecretKey param.prefixSecretKeySize str
    cleanseL "buf33" 33
    pure r
  else toBase58Check host key32 32 param.prefixSecretKey param.prefixSecretKeySize str

/-- `fingera_exkey_to_string`, exkey.c:90-99. -/
def exkeyToString (host : Host) (key : ExKey) (str : List Byte) (param : ChainParameters) :
    Leak (List Byte × Nat) := do
  let extkey ← exkeyEncode host key "extkey" (List.replicate 74 0xAA#8)
  let r ← toBase58Check host ⟨"extkey", 0, extkey⟩ 74 param.prefixExtSecretKey param.prefixExtSecretKeySize str
  cleanseL "extkey" 74
  pure r

end Leakage
