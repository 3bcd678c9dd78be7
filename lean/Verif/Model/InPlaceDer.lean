import Verif.Model.Overlap
import Verif.Model.Key
/-!
DER encodings of keys and signatures with argument and result in one object `mem`: the argument begins at offset `a`, the result is
written at offset `b`.  The statements are those of `Verif.Model.Key`; every read sees what was written before it, a `memcpy` between
overlapping places is undefined.
-/
namespace InPlace
open Key SecpLib

/-- `memcpy(obj + d, obj + s, n)`: C allows it only if the two places do not overlap. -/
def memcpyIn (mem : List Byte) (d s n : Nat) : Res (List Byte) :=
  if n = 0 ∨ d + n ≤ s ∨ s + n ≤ d then memcpy mem d (mem.drop s) n else .ub

/-- The `n` bytes from offset `a` on (fewer if the object ends before). -/
def view (mem : List Byte) (a n : Nat) : List Byte := (mem.drop a).take n

/-- `ec_privkey_import_der` after the sequence header, src/btc/key.c:216-236; `out32` is `obj + b`, `privkey` is `obj + a`.  Reads
beyond the announced length count as undefined. -/
def importBody (mem : List Byte) (a len b pos : Nat) : Res (List Byte × Bool) :=
  let inp := view mem a len
  if len < pos + 3 then .ok (mem, false)
  else do
    let v0 ← rd inp pos
    let v1 ← rd inp (pos+1)
    let v2 ← rd inp (pos+2)
    if v0 ≠ 0x02#8 ∨ v1 ≠ 0x01#8 ∨ v2 ≠ 0x01#8 then pure (mem, false)
    else
      let pos := pos + 3
      if len < pos + 2 then pure (mem, false)
      else do
        let t ← rd inp pos
        if t ≠ 0x04#8 then pure (mem, false)
        else do
          let c ← rd inp (pos+1)
          let oslen := c.toNat
          let pos := pos + 2
          if oslen > 32 ∨ len < pos + oslen then pure (mem, false)
          else do
            let mem ← memcpyIn mem (b + (32 - oslen)) (a + pos) oslen
            let ok ← seckeyVerify (mem.drop b)
            if !ok then do
              let mem ← memset mem b 0#8 32
              pure (mem, false)
            else pure (mem, true)

/-- `fingera_btc_key_decode(obj + a, len, obj + b)`, src/btc/key.c:448-452 and 187-237: the object and the return value. -/
def keyDecode (mem : List Byte) (a len b : Nat) : Res (List Byte × Bool) := do
  let mem ← memset mem b 0#8 32
  let inp := view mem a len
  if len < 0 + 1 then pure (mem, false)
  else do
    let t ← rd inp 0
    if t ≠ 0x30#8 then pure (mem, false)
    else if len < 1 + 1 then pure (mem, false)
    else do
      let c ← rd inp 1
      if c &&& 0x80#8 = 0#8 then pure (mem, false)
      else
        let lenb := (c &&& 0x7F#8).toNat
        if lenb < 1 ∨ lenb > 2 then pure (mem, false)
        else if len < 2 + lenb then pure (mem, false)
        else do
          let lo ← rd inp (2 + (lenb - 1))
          let hi ← if lenb > 1 then rd inp (2 + (lenb - 2)) else pure 0#8
          let sl := hi.toNat * 256 + lo.toNat
          if len < 2 + lenb + sl then pure (mem, false)
          else importBody mem a len b (2 + lenb)

/-- The common part of the two branches of `ec_privkey_export_der`, src/btc/key.c:280-291 and 313-324: `key32` is `obj + a`, `privkey`
is `obj + b`. -/
def exportWrite (nd : Bool) (mem : List Byte) (a b : Nat) (begin middle : List Byte) (pk : PubObj) (pubLen total : Nat)
    (compr : Bool) : Res (List Byte × Nat × Bool) := do
  let mem ← memcpy mem b begin begin.length
  let mem ← memcpyIn mem (b + begin.length) a 32
  let mem ← memcpy mem (b + (begin.length + 32)) middle middle.length
  let ptr := begin.length + 32 + middle.length
  let (rest, pubLen, _) ← pubkeySerialize (mem.drop (b + ptr)) pubLen pk compr
  let mem := mem.take (b + ptr) ++ rest
  assertNd nd (ptr + pubLen == total)
  pure (mem, ptr + pubLen, true)

/-- `ec_privkey_export_der`, src/btc/key.c:253-327: the public key is computed before anything is written. -/
def exportDer (nd : Bool) (mem : List Byte) (a b len : Nat) (compr : Bool) : Res (List Byte × Nat × Bool) := do
  let (pk, r) ← pubkeyCreate (mem.drop a)
  if !r then pure (mem, 0, false)
  else if compr then do
    assertNd nd (decide (len ≥ 214))
    exportWrite nd mem a b beginCompressed middleCompressed pk 33 214 compr
  else do
    assertNd nd (decide (len ≥ 279))
    exportWrite nd mem a b beginUncompressed middleUncompressed pk 65 279 compr

/-- `fingera_btc_key_encode(obj + a, obj + b, len)`, src/btc/key.c:428-446. -/
def keyEncode (nd : Bool) (mem : List Byte) (a b len : Nat) : Res (List Byte × Bool) := do
  assertNd nd (len == 279 || len == 214)
  if len ≠ 279 ∧ len ≠ 214 then pure (mem, false)
  else do
    let (mem, encodedLen, r) ← exportDer nd mem a b len (len == 214)
    let r := if encodedLen = len then r else false
    assertNd nd (encodedLen == len)
    pure (mem, r)

/-- `fingera_btc_signature_decode(obj + a, len, obj + b)`, src/btc/key.c:576-583 and 21-164.  `repr` is how libsecp256k1 lays out a
signature in the 64 bytes of `secp256k1_ecdsa_signature`.  The first statement stores the signature (0, 0) (line 32); all reads of the
input follow; the last statements store the result. -/
def signatureDecode (repr : Sig → List Byte) (mem : List Byte) (a len b : Nat) : Res (List Byte × Bool) := do
  let mem ← memcpy mem b (repr ⟨0, 0⟩) 64
  let (sig, r) ← parseDerLax (view mem a len) len
  let mem ← memcpy mem b (repr sig) 64
  pure (mem, r)

end InPlace
