import Verif.Model.LeakageKey

/-!
What an observer of the machine sees (`Verif.Model.Leakage`) of the functions that read data and secret
keys from texts.  A character that is looked at several times in a row counts as one access.  `isspace`
and `memcmp` are calls of a library: what they do inside is not looked at (glibc's `isspace` looks the
character up in a table, so more may be seen than is modelled here).
-/
namespace Leakage
open Endian Exkey

/-! ### `src/hex.c` -/

/-- The loop of `fingera_from_hex`, hex.c:54-59, from pair `j` on, `k` pairs to go; `n` bytes have been
written.  Returns the output and the number of bytes. -/
def unhexLoop (str : Ptr) (dst : String) (j : Nat) : Nat → List Byte × Nat → Leak (List Byte × Nat)
  | 0, s => do
    branch false
    pure s
  | k+1, s => do
    branch true
    let c ← seen [.load str.obj (str.base + 2 * j) 1] (rd str.mem (2 * j))
    let high ← seen [.load "HEX_MAP" c.toNat 1] (rd Hex.HEX_MAP c.toNat)
    let d ← seen [.load str.obj (str.base + (2 * j + 1)) 1] (rd str.mem (2 * j + 1))
    let low ← seen [.load "HEX_MAP" d.toNat 1] (rd Hex.HEX_MAP d.toNat)
    seen ([.branch (high = 0xFF)] ++ (if high = 0xFF then [] else [.branch (low = 0xFF)])) (.ok ())
    if high = 0xFF ∨ low = 0xFF then pure s
    else do
      let buf ← seen [.store dst s.2 1] (wr s.1 s.2 ((high <<< 4) ||| low))
      unhexLoop str dst (j + 1) k (buf, s.2 + 1)

/-- `fingera_from_hex`, hex.c:50-61. -/
def fromHex (str : Ptr) (strLen : Nat) (dst : String) (buf : List Byte) : Leak (List Byte × Nat) :=
  unhexLoop str dst 0 (strLen / 2) (buf, 0)

/-! ### `src/base58.c` -/

/-- `while (*str && isspace(*str)) str++`, base58.c:76-78; the text is at offset `p` of the array `obj`. -/
def skipSpaces (cs : Bool) (obj : String) : Nat → List Byte → Nat → Leak (List Byte × Nat)
  | _, [], _ => .ub
  | p, c :: r, n => do
    seen [.load obj p 1, .branch (c ≠ 0#8)] (.ok ())
    if c = 0#8 then pure (c :: r, n)
    else do
      let sp ← seen [.call "isspace"] (Base58.isspace cs c)
      branch sp
      if sp then skipSpaces cs obj (p + 1) r (n+1) else pure (c :: r, n)

/-- `while (*str == '1')`, base58.c:81-84. -/
def countOnes (obj : String) : Nat → List Byte → Nat → Leak (List Byte × Nat)
  | _, [], _ => .ub
  | p, c :: r, n => do
    seen [.load obj p 1, .branch (c = chr '1')] (.ok ())
    if c = chr '1' then countOnes obj (p + 1) r (n+1) else pure (c :: r, n)

/-- Digit loop, base58.c:90-108 (see `Base58.digitLoop`). -/
def digitLoop (cs : Bool) (size : Nat) (obj : String) : Nat → List Byte → List Byte → Nat →
    Leak Base58.DigitsResult
  | _, [], _, _ => .ub
  | p, c :: r, b256, length => do
    seen [.load obj p 1, .branch (c ≠ 0#8)] (.ok ())
    if c = 0#8 then pure (some (c :: r, b256, length))
    else do
      let sp ← seen [.call "isspace"] (Base58.isspace cs c)
      branch (!sp)
      if sp then pure (some (c :: r, b256, length))
      else do
        let v ← seen [.load "BASE58_DECODE" c.toNat 1] (rd Base58.BASE58_DECODE c.toNat)
        branch (v = -1)
        if v = -1 then pure none
        else do
          let (b256, i, carry) ← carryLoop 256 58 length "b256" size 0 v.toNat b256
          seen [.branch (carry = 0)] (assertC (carry == 0))
          digitLoop cs size obj (p + 1) r b256 i

/-- `while (isspace(*str)) str++`, base58.c:110. -/
def skipTrailing (cs : Bool) (obj : String) : Nat → List Byte → Leak (List Byte)
  | _, [] => .ub
  | p, c :: r => do
    let sp ← seen [.load obj p 1, .call "isspace"] (Base58.isspace cs c)
    branch sp
    if sp then skipTrailing cs obj (p + 1) r else pure (c :: r)

/-- base58.c:120-122 from `it` on, `k` bytes to go; `pos` is the current `zeroes`. -/
def inLoop (b256 : List Byte) (dst : String) (it pos : Nat) : Nat → List Byte → Leak (List Byte)
  | 0, out => do
    branch false
    pure out
  | k+1, out => do
    branch true
    let d ← seen [.load "b256" it 1] (rd b256 it)
    let out ← seen [.store dst pos 1] (wr out pos d)
    inLoop b256 dst (it + 1) (pos + 1) k out

/-- `fingera_from_base58`, base58.c:73-126.  `str3` is what is left of the text, so it lies
`str.mem.length - str3.length` behind its beginning. -/
def fromBase58 (cs : Bool) (str : Ptr) (strLen : Nat) (dst : String) (buf : List Byte) :
    Leak (List Byte × Nat) := do
  let (str1, skipped) ← skipSpaces cs str.obj str.base str.mem 0
  let (str2, zeroes) ← countOnes str.obj (str.base + skipped) str1 0
  if zeroes ≥ 2^31 then .ub
  else
    let size ← seen [] (Base58.workSize ((strLen : Int) - (skipped : Int) - (zeroes : Int)))
    onStack size
    let b256 ← seen [.store "b256" 0 size] (.ok (List.replicate size 0#8))
    match ← digitLoop cs size str.obj (str.base + skipped + zeroes) str2 b256 0 with
    | none => do
      cleanseL "b256" size
      onStack size
      pure (buf, 0)
    | some (str3, b256, length) => do
      let str4 ← skipTrailing cs str.obj (str.base + (str.mem.length - str3.length)) str3
      let c ← seen [] (rd str4 0)
      branch (c ≠ 0#8)
      if c ≠ 0#8 then do
        cleanseL "b256" size
        onStack size
        pure (buf, 0)
      else do
        let it ← skipZeroes ⟨"b256", 0, b256⟩ length (size - length)
        let out ← memsetL dst buf 0 0#8 zeroes
        let out ← inLoop b256 dst it zeroes (size - it) out
        cleanseL "b256" size
        onStack size
        pure (out, zeroes + (size - it))

/-! ### `src/btc/base58_check.c`, `src/btc/key.c`, `src/btc/exkey.c` -/

/-- `memcmp(a, b, n) != 0` and the branch on it. -/
def memeqL (a : Ptr) (b : Ptr) (n : Nat) : Leak Bool := do
  let same ← seen [.load a.obj a.base n, .load b.obj b.base n, .call "memcmp"] (memeq a.mem b.mem n)
  branch (!same)
  pure same

/-- `fingera_from_base58_check`, base58_check.c:33-40. -/
def fromBase58Check (host : Host) (cs : Bool) (str : Ptr) (strLen : Nat) (dst : String) (buf : List Byte) :
    Leak (List Byte × Nat) := do
  let (buf, bufSize) ← fromBase58 cs str strLen dst buf
  branch (bufSize < 4)
  if bufSize < 4 then pure (buf, 0)
  else do
    let hash ← hash256 host ⟨dst, 0, buf⟩ (bufSize - 4) "hash" (List.replicate 32 0xAA#8)
    let same ← memeqL ⟨"hash", 0, hash⟩ ⟨dst, bufSize - 4, buf.drop (bufSize - 4)⟩ 4
    if same then pure (buf, bufSize - 4) else pure (buf, 0)

/-- key.c:394-398. -/
def wifFinish (buf key32 : List Byte) (isCompressed : Int) (param : ChainParameters) : Leak Key.FromString := do
  let same ← memeqL ⟨"buf", 0, buf⟩ ⟨"prefix_secret_key", 0, param.prefixSecretKey⟩ param.prefixSecretKeySize
  if !same then pure ⟨false, key32, isCompressed⟩
  else do
    let key32 ← memcpyL "key32" key32 0 ⟨"buf", param.prefixSecretKeySize, buf.drop param.prefixSecretKeySize⟩ 32
    pure ⟨true, key32, isCompressed⟩

/-- `fingera_btc_key_from_string`, key.c:376-399. -/
def keyFromString (nd : Bool) (host : Host) (cs : Bool) (str : Ptr) (strLen : Nat) (key32 : List Byte)
    (isCompressed : Int) (param : ChainParameters) : Leak Key.FromString := do
  assertL nd (decide (param.prefixSecretKeySize ≤ 8))
  let (buf, size) ← fromBase58Check host cs str strLen "buf" (List.replicate 40 0xAA#8)
  branch (size ≤ 32)
  if size ≤ 32 then pure ⟨false, key32, isCompressed⟩
  else do
    branch (param.prefixSecretKeySize ≠ size - 32)
    if param.prefixSecretKeySize ≠ size - 32 then do
      branch (param.prefixSecretKeySize ≠ size - 32 - 1)
      if param.prefixSecretKeySize ≠ size - 32 - 1 then pure ⟨false, key32, isCompressed⟩
      else do
        let b ← seen [.load "buf" (size - 1) 1] (rd buf (size - 1))
        branch (b ≠ 1#8)
        if b ≠ 1#8 then pure ⟨false, key32, isCompressed⟩
        else do
          seen [.store "is_compressed" 0 4] (.ok ())
          wifFinish buf key32 1 param
    else do
      seen [.store "is_compressed" 0 4] (.ok ())
      wifFinish buf key32 0 param

/-- `fingera_exkey_from_string`, exkey.c:101-116. -/
def exkeyFromString (nd : Bool) (host : Host) (cs : Bool) (str : Ptr) (strLen : Nat) (key : ExKey)
    (param : ChainParameters) : Leak (ExKey × Bool) := do
  assertL nd (decide (param.prefixExtSecretKeySize ≤ 8))
  let (extkey, size) ← fromBase58Check host cs str strLen "extkey" (List.replicate 82 0xAA#8)
  assertL nd (decide (size ≤ 82))
  seen ([.branch (size ≤ 74)] ++ (if size ≤ 74 then [] else [.branch (size > 82)])) (.ok ())
  if size ≤ 74 ∨ size > 82 then pure (key, false)
  else do
    branch (size - 74 ≠ param.prefixExtSecretKeySize)
    if size - 74 ≠ param.prefixExtSecretKeySize then pure (key, false)
    else do
      let same ← memeqL ⟨"extkey", 0, extkey⟩ ⟨"prefix_ext_secret_key", 0, param.prefixExtSecretKey⟩ (size - 74)
      if !same then pure (key, false)
      else do
        let key ← exkeyDecode host ⟨"extkey", size - 74, extkey.drop (size - 74)⟩ key
        cleanseL "extkey" 82
        pure (key, true)

end Leakage
