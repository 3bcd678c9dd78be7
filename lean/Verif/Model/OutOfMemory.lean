import Verif.Model.Address
import Verif.Model.Exkey
/-!
The functions that may ask for memory, with a `malloc` that may refuse.

`DECLARE_BUFFER` (include/fingera_libc/sl/buffer.h:14-24) is the only caller of `malloc` in the library (the allocations inside
libsecp256k1 and the operating system apart).  The functions here are those of the other model files once more, with the answers
of `malloc` as a parameter.  Wiping and freeing are in `Verif.Model.Temporaries`; `free(NULL)` does nothing.
-/
namespace OutOfMemory

/-- The allocator: does it serve request number `k` (counted from 0), for `size` bytes? -/
abbrev Grant := Nat → Nat → Bool

/-- Computations that count their requests. -/
def Al (α : Type) : Type := Nat → Res (α × Nat)

instance : Monad Al where
  pure a := fun k => .ok (a, k)
  bind t f := fun k => (t k).bind fun p => f p.1 p.2

instance : MonadLift Res Al where
  monadLift m := fun k => m.bind fun a => .ok (a, k)

/-- `malloc(size)`: a block of that size with arbitrary contents, or NULL (`none`). -/
def malloc (g : Grant) (size : Nat) : Al (Option (List Byte)) := fun k =>
  .ok (if g k size then some (List.replicate size 0xAA#8) else none, k + 1)

/-- `DECLARE_BUFFER`, include/fingera_libc/sl/buffer.h:14-24: up to 128 bytes on the stack (modelled, as elsewhere, as an object of
exactly the requested size), else from the heap; the answer of `malloc` is not checked. -/
def declare (g : Grant) (size : Nat) : Al (Option (List Byte)) :=
  if size ≤ 128 then pure (some (List.replicate size 0xAA#8)) else malloc g size

/-- Use of a pointer as that of an object: undefined for NULL. -/
def deref : Option (List Byte) → Res (List Byte)
  | some mem => .ok mem
  | none => .ub

/-- `fingera_to_base58`, src/base58.c:29-71. -/
def toBase58 (g : Grant) (buf : List Byte) (bufSize : Nat) (str : List Byte) : Al (List Byte × Nat) := do
  let zeroes ← Base58.skipZeroes buf bufSize 0
  let size := (bufSize - zeroes) * 138 / 100 + 1
  if size ≥ 2^31 then (Res.ub : Res (List Byte × Nat))
  else do
    let p ← declare g size
    (do
      let b58 ← deref p
      let b58 ← memset b58 0 0#8 size
      let (b58, length) ← forLoop (Base58.encBody buf size) zeroes (bufSize - zeroes) (b58, 0)
      let iter ← Base58.skipZeroes b58 length (size - length)
      let str ← memset str 0 (chr '1') zeroes
      let str ← forLoop (Base58.encOut b58 zeroes iter) iter (size - iter) str
      pure (str, zeroes + (size - iter)) : Res (List Byte × Nat))

/-- `fingera_from_base58`, src/base58.c:73-126. -/
def fromBase58 (g : Grant) (cs : Bool) (str : List Byte) (strLen : Nat) (buf : List Byte) : Al (List Byte × Nat) := do
  let (str1, skipped) ← Base58.skipSpaces cs str 0
  let (str2, zeroes) ← Base58.countOnes str1 0
  if zeroes ≥ 2^31 then (Res.ub : Res (List Byte × Nat))
  else do
    let size ← Base58.workSize ((strLen : Int) - (skipped : Int) - (zeroes : Int))
    let p ← declare g size
    (do
      let b256 ← deref p
      let b256 ← memset b256 0 0#8 size
      match ← Base58.digitLoop cs size str2 b256 0 with
      | none => pure (buf, 0)
      | some (str3, b256, length) =>
        let str4 ← Base58.skipTrailing cs str3
        let c ← rd str4 0
        if c ≠ 0#8 then pure (buf, 0)
        else
          let it ← Base58.skipZeroes b256 length (size - length)
          let out ← memset buf 0 0#8 zeroes
          let out ← forLoop (Base58.decOut b256 zeroes it) it (size - it) out
          pure (out, zeroes + (size - it)) : Res (List Byte × Nat))

/-- `fingera_to_base58_check`, src/btc/base58_check.c:10-31. -/
def toBase58Check (g : Grant) (host : Host) (buf : List Byte) (bufSize : Nat) (pre : List Byte) (prefixSize : Nat)
    (str : List Byte) : Al (List Byte × Nat) := do
  let hash := List.replicate 32 0xAA#8
  let sizeOfData := bufSize + prefixSize
  let sizeOfAll := sizeOfData + 4
  let p ← declare g sizeOfAll
  let buffer ← deref p
  let buffer ← memcpy buffer 0 pre prefixSize
  let buffer ← memcpy buffer prefixSize buf bufSize
  let hash ← BtcHash.hash256 host buffer sizeOfData hash
  let buffer ← memcpy buffer sizeOfData hash 4
  toBase58 g buffer sizeOfAll str

/-- `fingera_from_base58_check`, src/btc/base58_check.c:33-40. -/
def fromBase58Check (g : Grant) (host : Host) (cs : Bool) (str : List Byte) (strLen : Nat) (buf : List Byte) :
    Al (List Byte × Nat) := do
  let hash := List.replicate 32 0xAA#8
  let (buf, bufSize) ← fromBase58 g cs str strLen buf
  if bufSize < 4 then pure (buf, 0)
  else do
    let hash ← BtcHash.hash256 host buf (bufSize - 4) hash
    let same ← memeq hash (buf.drop (bufSize - 4)) 4
    if same then pure (buf, bufSize - 4) else pure (buf, 0)

/-- `fingera_to_address_pubkey`, src/btc/address.c:10-20. -/
def toAddressPubkey (g : Grant) (host : Host) (keyId : List Byte) (keyIdSize : Nat) (out : List Byte) (outSize : Nat)
    (param : ChainParameters) : Al (List Byte × Nat) :=
  if outSize < Base58Check.toBase58CheckLength keyIdSize param.prefixPubkeyAddressSize then pure (out, 0)
  else toBase58Check g host keyId keyIdSize param.prefixPubkeyAddress param.prefixPubkeyAddressSize out

/-- `fingera_to_address_script`, src/btc/address.c:22-32. -/
def toAddressScript (g : Grant) (host : Host) (scriptId : List Byte) (scriptIdSize : Nat) (out : List Byte)
    (outSize : Nat) (param : ChainParameters) : Al (List Byte × Nat) :=
  if outSize < Base58Check.toBase58CheckLength scriptIdSize param.prefixScriptAddressSize then pure (out, 0)
  else toBase58Check g host scriptId scriptIdSize param.prefixScriptAddress param.prefixScriptAddressSize out

/-- `DECLARE_BUFFER(char, buffer, str_len - 7)`, src/btc/address.c:98, on a 64-bit machine: the size wraps around for `str_len < 7`.
The stack array has the indeterminate contents `stack`; through NULL nothing may be accessed, as through a pointer to an empty
object. -/
def bech32Buffer (g : Grant) (stack : List Byte) (strLen : Nat) : Al (List Byte) :=
  let size := if 7 ≤ strLen then strLen - 7 else 2^64 + strLen - 7
  if size ≤ 128 then pure (stack.take 128)
  else do
    let p ← malloc g size
    pure (p.getD [])

/-- `decode_bech32`, src/btc/address.c:95-140. -/
def decodeBech32 (g : Grant) (cs : Bool) (stack : List Byte) (str : List Byte) (strLen : Nat) (out : List Byte)
    (outSize : Nat) (param : ChainParameters) : Al Address.Decoded := do
  let buffer ← bech32Buffer g stack strLen
  (do
    let r ← Bech32.decode str strLen (List.replicate 16 0xAA#8) 16 buffer
    if r.ret < 1 ∨ r.hrpSize ≠ param.bech32HrpSize then pure ⟨.bad, out, outSize⟩
    else do
      let same ← memeq r.hrp param.bech32Hrp r.hrpSize
      if !same then pure ⟨.bad, out, outSize⟩
      else Address.decodeWitness cs r.b32 r.ret.toNat out outSize : Res Address.Decoded)

/-- `fingera_btc_address_decode`, src/btc/address.c:142-165. -/
def addressDecode (g : Grant) (host : Host) (cs : Bool) (stack : List Byte) (str : List Byte) (strLen : Nat)
    (out : List Byte) (outSize : Nat) (param : ChainParameters) : Al Address.Decoded := do
  if outSize < Base58Check.fromBase58CheckLength strLen then pure ⟨.bad, out, outSize⟩
  else do
    let (out, size) ← fromBase58Check g host cs str strLen out
    if size ≠ 0 then do
      let isPubkey ← Address.hasPrefix out size param.prefixPubkeyAddress param.prefixPubkeyAddressSize
      if isPubkey then Address.strip .pubkey out size param.prefixPubkeyAddressSize
      else do
        let isScript ← Address.hasPrefix out size param.prefixScriptAddress param.prefixScriptAddressSize
        if isScript then Address.strip .script out size param.prefixScriptAddressSize
        else decodeBech32 g cs stack str strLen out outSize param
    else decodeBech32 g cs stack str strLen out outSize param

/-- `fingera_btc_key_to_string`, src/btc/key.c:360-375. -/
def keyToString (g : Grant) (host : Host) (key32 str : List Byte) (isCompressed : Bool) (param : ChainParameters) :
    Al (List Byte × Nat) :=
  if isCompressed then do
    let buf33 := List.replicate 33 0xAA#8
    let buf33 ← memcpy buf33 0 key32 32
    let buf33 ← wr buf33 32 1#8
    toBase58Check g host buf33 33 param.prefixSecretKey param.prefixSecretKeySize str
  else toBase58Check g host key32 32 param.prefixSecretKey param.prefixSecretKeySize str

/-- `fingera_btc_key_from_string`, src/btc/key.c:376-399. -/
def keyFromString (g : Grant) (nd : Bool) (host : Host) (cs : Bool) (str : List Byte) (strLen : Nat) (key32 : List Byte)
    (isCompressed : Int) (param : ChainParameters) : Al Key.FromString := do
  let buf := List.replicate 40 0xAA#8
  assertNd nd (decide (param.prefixSecretKeySize ≤ 8))
  let (buf, size) ← fromBase58Check g host cs str strLen buf
  (if size ≤ 32 then pure ⟨false, key32, isCompressed⟩
    else
      let preSize := size - 32
      if param.prefixSecretKeySize ≠ preSize then
        if param.prefixSecretKeySize ≠ preSize - 1 then pure ⟨false, key32, isCompressed⟩
        else do
          let b ← rd buf (size - 1)
          if b ≠ 1#8 then pure ⟨false, key32, isCompressed⟩
          else Key.wifFinish buf key32 1 param
      else Key.wifFinish buf key32 0 param : Res Key.FromString)

section
open Exkey

/-- `fingera_exkey_to_string`, src/btc/exkey.c:90-99. -/
def exkeyToString (g : Grant) (host : Host) (key : ExKey) (str : List Byte) (param : ChainParameters) : Al (List Byte × Nat) := do
  let extkey ← exkeyEncode host key (List.replicate 74 0xAA#8)
  toBase58Check g host extkey 74 param.prefixExtSecretKey param.prefixExtSecretKeySize str

/-- `fingera_exkey_from_string`, src/btc/exkey.c:101-116. -/
def exkeyFromString (g : Grant) (nd : Bool) (host : Host) (cs : Bool) (str : List Byte) (strLen : Nat) (key : ExKey)
    (param : ChainParameters) : Al (ExKey × Bool) := do
  let extkey := List.replicate 82 0xAA#8
  assertNd nd (decide (param.prefixExtSecretKeySize ≤ 8))
  let (extkey, size) ← fromBase58Check g host cs str strLen extkey
  (do
    assertNd nd (decide (size ≤ 82))
    if size ≤ 74 ∨ size > 82 then pure (key, false)
    else
      let prefixSize := size - 74
      if prefixSize ≠ param.prefixExtSecretKeySize then pure (key, false)
      else do
        let same ← memeq extkey param.prefixExtSecretKey prefixSize
        if !same then pure (key, false)
        else do
          let key ← exkeyDecode host (extkey.drop prefixSize) key
          pure (key, true) : Res (ExKey × Bool))

/-- `fingera_expubkey_to_string`, src/btc/exkey.c:130-138. -/
def expubkeyToString (g : Grant) (host : Host) (pubkey : ExPubkey) (str : List Byte) (param : ChainParameters) :
    Al (List Byte × Nat) := do
  let extkey ← expubkeyEncode host pubkey (List.replicate 74 0xAA#8)
  toBase58Check g host extkey 74 param.prefixExtPublicKey param.prefixExtPublicKeySize str

/-- `fingera_expubkey_from_string`, src/btc/exkey.c:139-153. -/
def expubkeyFromString (g : Grant) (nd : Bool) (host : Host) (cs : Bool) (str : List Byte) (strLen : Nat) (pub : ExPubkey)
    (param : ChainParameters) : Al (ExPubkey × Bool) := do
  let extkey := List.replicate 82 0xAA#8
  assertNd nd (decide (param.prefixExtPublicKeySize ≤ 8))
  let (extkey, size) ← fromBase58Check g host cs str strLen extkey
  (do
    assertNd nd (decide (size ≤ 82))
    if size ≤ 74 ∨ size > 82 then pure (pub, false)
    else
      let prefixSize := size - 74
      if prefixSize ≠ param.prefixExtPublicKeySize then pure (pub, false)
      else do
        let same ← memeq extkey param.prefixExtPublicKey prefixSize
        if !same then pure (pub, false)
        else do
          let pub ← expubkeyDecode host (extkey.drop prefixSize) pub
          pure (pub, true) : Res (ExPubkey × Bool))

end
end OutOfMemory
