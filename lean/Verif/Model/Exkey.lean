import Verif.Model.Key
/-! Model of `src/btc/exkey.c` and the structures of `include/fingera_libc/btc/exkey.h`. -/
namespace Exkey
open SecpLib

/-- `fingera_ex_extension`, include/fingera_libc/btc/exkey.h:22-27. -/
structure Ext where
  depth : Byte
  fingerprint : U32
  child : U32
  chainCode : List Byte
deriving DecidableEq, Repr

/-- `fingera_ex_key`, exkey.h:34-37. -/
structure ExKey where
  ext : Ext
  key : List Byte
deriving DecidableEq, Repr

/-- `fingera_ex_pubkey`, exkey.h:29-32. -/
structure ExPubkey where
  ext : Ext
  pubkey : List Byte
deriving DecidableEq, Repr

/-- `hashkey`, src/btc/exkey.c:11-12. -/
def hashkey : List Byte := cstr "Bitcoin seed"

/-- `fingera_exkey_init`, src/btc/exkey.c:10-22. -/
def exkeyInit (host : Host) (key : ExKey) (seed : List Byte) (len : Nat) : Res ExKey := do
  let out := List.replicate 64 0xAA#8
  let out ← Sha2.hmac_sha512 host hashkey 12 seed len out
  let k ← memcpy key.key 0 out 32
  let c ← memcpy key.ext.chainCode 0 (out.drop 32) 32
  pure ⟨⟨0#8, 0#32, 0#32, c⟩, k⟩

/-- `fingera_exkey_derive`, src/btc/exkey.c:24-34: the return value and `*derived`. -/
def exkeyDerive (nd : Bool) (host : Host) (key derived : ExKey) (child fingerprint : U32) :
    Res (ExKey × Bool) := do
  let r ← Key.keyDerive nd host key.key key.ext.chainCode derived.key derived.ext.chainCode child
  let derived : ExKey := ⟨{ derived.ext with chainCode := r.chain }, r.key⟩
  if r.ok then
    pure (⟨⟨key.ext.depth + 1#8, fingerprint, child, derived.ext.chainCode⟩, derived.key⟩, true)
  else pure (derived, false)

/-- `fingera_expubkey_derive`, src/btc/exkey.c:36-47. -/
def expubkeyDerive (nd : Bool) (host : Host) (pubkey derived : ExPubkey) (child fingerprint : U32) :
    Res (ExPubkey × Bool) := do
  let r ← Key.pubkeyDerive nd host pubkey.pubkey pubkey.ext.chainCode derived.pubkey derived.ext.chainCode child
  let derived : ExPubkey := ⟨{ derived.ext with chainCode := r.chain }, r.key⟩
  if !r.ok then pure (derived, false)
  else pure (⟨⟨pubkey.ext.depth + 1#8, fingerprint, child, derived.ext.chainCode⟩, derived.pubkey⟩, true)

/-- `fingera_exkey_get_pub`, src/btc/exkey.c:49-57. -/
def exkeyGetPub (nd : Bool) (key : ExKey) (pubkey : ExPubkey) : Res ExPubkey := do
  let pub ← Key.keyGetPub nd key.key
  let (c, r) ← Key.pubkeyEncode nd pub pubkey.pubkey 33
  assertNd nd r
  pure ⟨key.ext, c⟩

/-- `write_key_extension`, src/btc/exkey.c:59-66. -/
def writeKeyExtension (host : Host) (ext : Ext) (code : List Byte) : Res (List Byte) := do
  let code ← wr code 0 ext.depth
  let code ← Endian.writeLittle32 host code 1 ext.fingerprint
  let code ← Endian.writeBig32 host code 5 ext.child
  memcpy code 9 ext.chainCode 32

/-- `read_key_extension`, src/btc/exkey.c:68-75. -/
def readKeyExtension (host : Host) (code : List Byte) (ext : Ext) : Res Ext := do
  let depth ← rd code 0
  let fingerprint ← Endian.readLittle32 host code 1
  let child ← Endian.readBig32 host code 5
  let chainCode ← memcpy ext.chainCode 0 (code.drop 9) 32
  pure ⟨depth, fingerprint, child, chainCode⟩

/-- `fingera_exkey_encode`, src/btc/exkey.c:77-82. -/
def exkeyEncode (host : Host) (key : ExKey) (code : List Byte) : Res (List Byte) := do
  let code ← writeKeyExtension host key.ext code
  let code ← wr code 41 0#8
  memcpy code 42 key.key 32

/-- `fingera_exkey_decode`, src/btc/exkey.c:84-88. -/
def exkeyDecode (host : Host) (code : List Byte) (key : ExKey) : Res ExKey := do
  let ext ← readKeyExtension host code key.ext
  let k ← memcpy key.key 0 (code.drop 42) 32
  pure ⟨ext, k⟩

/-- `fingera_exkey_to_string`, src/btc/exkey.c:90-99. -/
def exkeyToString (host : Host) (key : ExKey) (str : List Byte) (param : ChainParameters) :
    Res (List Byte × Nat) := do
  let extkey ← exkeyEncode host key (List.replicate 74 0xAA#8)
  Base58Check.toBase58Check host extkey 74 param.prefixExtSecretKey param.prefixExtSecretKeySize str

/-- `fingera_exkey_from_string`, src/btc/exkey.c:101-116: the return value and `*key`. -/
def exkeyFromString (nd : Bool) (host : Host) (cs : Bool) (str : List Byte) (strLen : Nat) (key : ExKey)
    (param : ChainParameters) : Res (ExKey × Bool) := do
  let extkey := List.replicate 82 0xAA#8
  assertNd nd (decide (param.prefixExtSecretKeySize ≤ 8))
  let (extkey, size) ← Base58Check.fromBase58Check host cs str strLen extkey
  assertNd nd (decide (size ≤ 82))
  if size ≤ 74 ∨ size > 82 then pure (key, false)
  else
    let prefixSize := size - 74
    if prefixSize ≠ param.prefixExtSecretKeySize then pure (key, false)
    else do
      let same ← memeq extkey param.prefixExtSecretKey prefixSize
      if !same then pure (key, false)
      else do
        let key ← exkeyDecode host (extkey.drop prefixSize) key
        pure (key, true)

/-- `fingera_expubkey_encode`, src/btc/exkey.c:118-122. -/
def expubkeyEncode (host : Host) (pubkey : ExPubkey) (code : List Byte) : Res (List Byte) := do
  let code ← writeKeyExtension host pubkey.ext code
  memcpy code 41 pubkey.pubkey 33

/-- `fingera_expubkey_decode`, src/btc/exkey.c:124-128. -/
def expubkeyDecode (host : Host) (code : List Byte) (pubkey : ExPubkey) : Res ExPubkey := do
  let ext ← readKeyExtension host code pubkey.ext
  let k ← memcpy pubkey.pubkey 0 (code.drop 41) 33
  pure ⟨ext, k⟩

/-- `fingera_expubkey_to_string`, src/btc/exkey.c:130-138. -/
def expubkeyToString (host : Host) (pubkey : ExPubkey) (str : List Byte) (param : ChainParameters) :
    Res (List Byte × Nat) := do
  let extkey ← expubkeyEncode host pubkey (List.replicate 74 0xAA#8)
  Base58Check.toBase58Check host extkey 74 param.prefixExtPublicKey param.prefixExtPublicKeySize str

/-- `fingera_expubkey_from_string`, src/btc/exkey.c:139-153. -/
def expubkeyFromString (nd : Bool) (host : Host) (cs : Bool) (str : List Byte) (strLen : Nat) (pub : ExPubkey)
    (param : ChainParameters) : Res (ExPubkey × Bool) := do
  let extkey := List.replicate 82 0xAA#8
  assertNd nd (decide (param.prefixExtPublicKeySize ≤ 8))
  let (extkey, size) ← Base58Check.fromBase58Check host cs str strLen extkey
  assertNd nd (decide (size ≤ 82))
  if size ≤ 74 ∨ size > 82 then pure (pub, false)
  else
    let prefixSize := size - 74
    if prefixSize ≠ param.prefixExtPublicKeySize then pure (pub, false)
    else do
      let same ← memeq extkey param.prefixExtPublicKey prefixSize
      if !same then pure (pub, false)
      else do
        let pub ← expubkeyDecode host (extkey.drop prefixSize) pub
        pure (pub, true)

end Exkey
