import Verif.Model.Exkey
/-!
`fingera_exkey_derive` and `fingera_expubkey_derive` called with `derived == key`: the child replaces its parent.  The statements are
those of `Model/Key` and `Model/Exkey` in the order of the C text, on one structure instead of two.
-/
namespace InPlaceKeys
open SecpLib Exkey

/-- `memcpy(p, p, n)`.  C11 7.24.2.1p2 makes copying between overlapping objects undefined (`strict`); the implementations in use
leave the bytes as they are. -/
def selfCopy (strict : Bool) (p : List Byte) (n : Nat) : Res (List Byte) := if strict then .ub else memcpy p 0 p n

/-- `fingera_btc_key_derive(key, chain, key, chain, child)`, src/btc/key.c:401-426. -/
def keyDeriveSelf (strict nd : Bool) (host : Host) (key chain : List Byte) (child : U32) : Res Key.Derived := do
  let (out, ret) ← Key.deriveHash nd host key chain child
  if ret then do
    let key ← selfCopy strict key 32
    let chain ← memcpy chain 0 (out.drop 32) 32
    let (key, ret) ← privkeyTweakAdd key out
    pure ⟨ret, key, chain⟩
  else pure ⟨false, key, chain⟩

/-- `fingera_exkey_derive(key, key, child, fingerprint)`, src/btc/exkey.c:24-34. -/
def exkeyDeriveSelf (strict nd : Bool) (host : Host) (key : ExKey) (child fingerprint : U32) : Res (ExKey × Bool) := do
  let r ← keyDeriveSelf strict nd host key.key key.ext.chainCode child
  let key : ExKey := ⟨{ key.ext with chainCode := r.chain }, r.key⟩
  if r.ok then
    let key : ExKey := { key with ext := { key.ext with fingerprint := fingerprint } }
    let key : ExKey := { key with ext := { key.ext with depth := key.ext.depth + 1#8 } }
    let key : ExKey := { key with ext := { key.ext with child := child } }
    pure (key, true)
  else pure (key, false)

/-- `fingera_btc_pubkey_derive(pub, chain, pub, chain, child)`, src/btc/key.c:463-481. -/
def pubkeyDeriveSelf (nd : Bool) (host : Host) (pub chain : List Byte) (child : U32) : Res Key.Derived := do
  assertNd nd (child >>> 31 == 0#32)
  let t ← rd pub 0
  assertNd nd (t == 2#8 || t == 3#8)
  let out := List.replicate 64 0xAA#8
  let (_, ok) ← Key.pubkeyDecode nd pub 33
  if !ok then pure ⟨false, pub, chain⟩
  else do
    let t ← rd pub 0
    let out ← BtcHash.bip32_hash host chain child t (pub.drop 1) out
    let chain ← memcpy chain 0 (out.drop 32) 32
    let (pk, ok) ← pubkeyParse pub 33
    if !ok then pure ⟨false, pub, chain⟩
    else do
      let (pk, ok) ← pubkeyTweakAdd pk out
      if !ok then pure ⟨false, pub, chain⟩
      else do
        let (pub, ok) ← Key.pubkeyEncode nd pk pub 33
        if !ok then pure ⟨false, pub, chain⟩ else pure ⟨true, pub, chain⟩

/-- `fingera_expubkey_derive(pubkey, pubkey, child, fingerprint)`, src/btc/exkey.c:36-47. -/
def expubkeyDeriveSelf (nd : Bool) (host : Host) (pubkey : ExPubkey) (child fingerprint : U32) : Res (ExPubkey × Bool) := do
  let r ← pubkeyDeriveSelf nd host pubkey.pubkey pubkey.ext.chainCode child
  let pubkey : ExPubkey := ⟨{ pubkey.ext with chainCode := r.chain }, r.key⟩
  if !r.ok then pure (pubkey, false)
  else
    let pubkey : ExPubkey := { pubkey with ext := { pubkey.ext with depth := pubkey.ext.depth + 1#8 } }
    let pubkey : ExPubkey := { pubkey with ext := { pubkey.ext with child := child } }
    let pubkey : ExPubkey := { pubkey with ext := { pubkey.ext with fingerprint := fingerprint } }
    pure (pubkey, true)

/-- A path of derivations, each onto the key itself; stops at the first failure. -/
def pathSelf (strict nd : Bool) (host : Host) : ExKey → List (U32 × U32) → Res (ExKey × Bool)
  | key, [] => .ok (key, true)
  | key, (child, fp) :: rest => do
    let (key, ok) ← exkeyDeriveSelf strict nd host key child fp
    if ok then pathSelf strict nd host key rest else pure (key, false)

end InPlaceKeys
