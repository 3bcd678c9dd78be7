import Verif.Model.LeakageRead
import Verif.Model.Address
import Verif.Model.Base64
import Verif.Model.CompressInteger

/-!
What an observer of the machine sees (`Verif.Model.Leakage`) of Base64, Base32, the compressed integers, Bech32
and addresses.  As in `Verif.Model.LeakageRead` a byte that is looked at several times in a row counts as one
access; a `switch` is seen like the chain of its comparisons.  `strchr`, `strrchr`, `isupper` and `tolower` are
calls of a library; the first two are also seen to look at every character up to where they stop.
-/
namespace Leakage
open Endian

/-- `p[i]`. -/
def rdL (p : Ptr) (i : Nat) : Leak Byte := seen [.load p.obj (p.base + i) 1] (rd p.mem i)

/-- `table[i]`, for entries of `k` bytes. -/
def lookL {α : Type} (name : String) (k : Nat) (tbl : List α) (i : Nat) : Leak α := seen [.load name (k * i) k] (rd tbl i)

/-- `p[i] = v` where `p` points to offset `base` of the array `obj` and `mem` are the bytes from there on. -/
def wrL (obj : String) (base : Nat) (mem : List Byte) (i : Nat) (v : Byte) : Leak (List Byte) :=
  seen [.store obj (base + i) 1] (wr mem i v)

/-- `for (i = i0; i < i0 + k; i++) s = f(i, s)` with its tests. -/
def forL {σ : Type} (f : Nat → σ → Leak σ) (i : Nat) : Nat → σ → Leak σ
  | 0, s => do
    branch false
    pure s
  | k+1, s => do
    branch true
    let s ← f i s
    forL f (i + 1) k s

/-- The same with `break` or `return` inside the body. -/
def forBL {σ ρ : Type} (f : Nat → σ → Leak (Step σ ρ)) (i : Nat) : Nat → σ → Leak (Step σ ρ)
  | 0, s => do
    branch false
    pure (.next s)
  | k+1, s => do
    branch true
    match ← f i s with
    | .next s => forBL f (i + 1) k s
    | .stop r => pure (.stop r)

/-- The branches of `c1 || c2 || …`: the rest is not evaluated once one of them holds. -/
def orT : List Bool → List Ev
  | [] => []
  | c :: r => .branch c :: (if c then [] else orT r)

/-- `if (c1 || c2 || …)`. -/
def branchOr (cs : List Bool) : Leak Unit := seen (orT cs) (.ok ())

/-! ### `src/base64.c` -/

/-- `encode_str[v]`, base64.c:72-73. -/
def enc64 (url : Bool) (v : Byte) : Leak Byte :=
  lookL (if url then "BASE64_URLSAFE_ENCODE" else "BASE64_STANDARD_ENCODE") 1 (Base64.encodeStr url) v.toNat

/-- base64.c:75-88 (see `Base64.encBody`). -/
def enc64Body (url : Bool) (buf : Ptr) (j : Nat) (out : List Byte) : Leak (List Byte) := do
  let i0 ← rdL buf (3*j)
  let i1 ← rdL buf (3*j+1)
  let i2 ← rdL buf (3*j+2)
  let byte1 := i0 >>> 2
  let byte2 := ((i0 &&& 0x3) <<< 4) ||| (i1 >>> 4)
  let byte3 := ((i1 &&& 0xF) <<< 2) ||| (i2 >>> 6)
  let byte4 := i2 &&& 0x3F
  let out ← wrL "str" 0 out (4*j) (← enc64 url byte1)
  let out ← wrL "str" 0 out (4*j+1) (← enc64 url byte2)
  let out ← wrL "str" 0 out (4*j+2) (← enc64 url byte3)
  wrL "str" 0 out (4*j+3) (← enc64 url byte4)

/-- base64.c:90-107 (see `Base64.encTail`). -/
def enc64Tail (url : Bool) (buf : Ptr) (n tailLen : Nat) (out : List Byte) : Leak (List Byte) := do
  branch (tailLen ≠ 0)
  if tailLen ≠ 0 then
    let i0 ← rdL buf (3*n)
    let byte1 := i0 >>> 2
    let byte2 := (i0 &&& 0x3) <<< 4
    let out ← wrL "str" 0 out (4*n) (← enc64 url byte1)
    branch (tailLen = 2)
    if tailLen = 2 then
      let i1 ← rdL buf (3*n+1)
      let byte2 := byte2 ||| (i1 >>> 4)
      let byte3 := (i1 &&& 0xF) <<< 2
      let out ← wrL "str" 0 out (4*n+1) (← enc64 url byte2)
      let out ← wrL "str" 0 out (4*n+2) (← enc64 url byte3)
      branch (!url)
      if !url then wrL "str" 0 out (4*n+3) (chr '=') else pure out
    else
      let out ← wrL "str" 0 out (4*n+1) (← enc64 url byte2)
      branch (!url)
      if !url then
        let out ← wrL "str" 0 out (4*n+2) (chr '=')
        wrL "str" 0 out (4*n+3) (chr '=')
      else pure out
  else pure out

/-- `_fingera_to_base64`, base64.c:67-108. -/
def toBase64Impl (buf : Ptr) (bufSize : Nat) (out : List Byte) (url : Bool) : Leak (List Byte) := do
  branch url
  let out ← forL (enc64Body url buf) 0 (bufSize / 3) out
  enc64Tail url buf (bufSize / 3) (bufSize % 3) out

/-- `fingera_to_base64`, base64.c:110-112. -/
def toBase64 (buf : Ptr) (bufSize : Nat) (str : List Byte) : Leak (List Byte) := toBase64Impl buf bufSize str false

/-- `fingera_to_base64_urlsafe`, base64.c:114-116. -/
def toBase64Urlsafe (buf : Ptr) (bufSize : Nat) (str : List Byte) : Leak (List Byte) := toBase64Impl buf bufSize str true

/-- `decode_str[c]`, base64.c:125-126. -/
def dec64 (url : Bool) (c : Byte) : Leak Byte :=
  lookL (if url then "BASE64_URLSAFE_DECODE" else "BASE64_STANDARD_DECODE") 1 (Base64.decodeStr url) c.toNat

/-- base64.c:128-145 (see `Base64.decBody`). -/
def dec64Body (url : Bool) (str : Ptr) (j : Nat) (buf : List Byte) : Leak (Step (List Byte) (List Byte × Nat)) := do
  let byte1 ← dec64 url (← rdL str (4*j))
  let byte2 ← dec64 url (← rdL str (4*j+1))
  let byte3 ← dec64 url (← rdL str (4*j+2))
  let byte4 ← dec64 url (← rdL str (4*j+3))
  branchOr [byte1 = 0xFF, byte2 = 0xFF, byte3 = 0xFF, byte4 = 0xFF]
  if byte1 = 0xFF ∨ byte2 = 0xFF ∨ byte3 = 0xFF ∨ byte4 = 0xFF then pure (.stop (buf, 3*j))
  else
    let buf ← wrL "buf" 0 buf (3*j) ((byte1 <<< 2) ||| (byte2 >>> 4))
    let buf ← wrL "buf" 0 buf (3*j+1) ((byte2 <<< 4) ||| (byte3 >>> 2))
    let buf ← wrL "buf" 0 buf (3*j+2) ((byte3 <<< 6) ||| byte4)
    pure (.next buf)

/-- base64.c:147-168 (see `Base64.decTail`). -/
def dec64Tail (url : Bool) (str : Ptr) (n tailLen : Nat) (buf : List Byte) : Leak (List Byte × Nat) := do
  branchOr [tailLen = 2, tailLen = 3]
  if tailLen = 2 then
    let byte1 ← dec64 url (← rdL str (4*n))
    let byte2 ← dec64 url (← rdL str (4*n+1))
    branchOr [byte1 = 0xFF, byte2 = 0xFF]
    if byte1 = 0xFF ∨ byte2 = 0xFF then pure (buf, 3*n)
    else
      let buf ← wrL "buf" 0 buf (3*n) ((byte1 <<< 2) ||| ((byte2 >>> 4) &&& 0x3))
      pure (buf, 3*n+1)
  else if tailLen = 3 then
    let byte1 ← dec64 url (← rdL str (4*n))
    let byte2 ← dec64 url (← rdL str (4*n+1))
    let byte3 ← dec64 url (← rdL str (4*n+2))
    branchOr [byte1 = 0xFF, byte2 = 0xFF, byte3 = 0xFF]
    if byte1 = 0xFF ∨ byte2 = 0xFF ∨ byte3 = 0xFF then pure (buf, 3*n)
    else
      let buf ← wrL "buf" 0 buf (3*n) ((byte1 <<< 2) ||| ((byte2 >>> 4) &&& 0x3))
      let buf ← wrL "buf" 0 buf (3*n+1) ((byte2 <<< 4) ||| ((byte3 >>> 2) &&& 0xF))
      pure (buf, 3*n+2)
  else pure (buf, 3*n)

/-- `_fingera_from_base64`, base64.c:118-169. -/
def fromBase64Impl (str : Ptr) (strLen : Nat) (buf : List Byte) (url : Bool) : Leak (List Byte × Nat) := do
  branch url
  match ← forBL (dec64Body url str) 0 (strLen / 4) buf with
  | .stop r => pure r
  | .next buf => dec64Tail url str (strLen / 4) (strLen % 4) buf

/-- `str_len > 0 && str[str_len - 1] == '='`, base64.c:172 and 174; without the first test where it fails. -/
def endsInPad (str : Ptr) (n : Nat) : Leak Bool := do
  branch (n > 0)
  if n > 0 then do
    let c ← rdL str (n - 1)
    branch (c = chr '=')
    pure (c = chr '=')
  else pure false

/-- base64.c:172-175 (see `Base64.stripLen`). -/
def stripLen (str : Ptr) (strLen : Nat) : Leak Nat := do
  let p ← endsInPad str strLen
  if p then do
    let q ← endsInPad str (strLen - 1)
    if q then pure (strLen - 1 - 1) else pure (strLen - 1)
  else pure strLen

/-- `fingera_from_base64`, base64.c:171-177. -/
def fromBase64 (str : Ptr) (strLen : Nat) (buf : List Byte) : Leak (List Byte × Nat) := do
  let strLen ← stripLen str strLen
  fromBase64Impl str strLen buf false

/-- `fingera_from_base64_urlsafe`, base64.c:179-181. -/
def fromBase64Urlsafe (str : Ptr) (strLen : Nat) (buf : List Byte) : Leak (List Byte × Nat) :=
  fromBase64Impl str strLen buf true

/-! ### `src/base32.c` -/

/-- `out[p] = encode_str[b0]; out[p + 1] = encode_str[b1]; …`, e.g. base32.c:83-90, and base32.c:70. -/
def puts32 (raw : Bool) (obj : String) (base : Nat) (out : List Byte) (p : Nat) : List Byte → Leak (List Byte)
  | [] => pure out
  | b :: bs => do
    let v ← lookL (if raw then "BASE32_ENCODE_RAW" else "BASE32_ENCODE") 1 (Base32.encodeStr raw) b.toNat
    let out ← wrL obj base out p v
    puts32 raw obj base out (p + 1) bs

/-- `out[p] = v0; out[p + 1] = v1; …`. -/
def wrsL (obj : String) (base : Nat) (mem : List Byte) (p : Nat) : List Byte → Leak (List Byte)
  | [] => pure mem
  | v :: vs => do
    let mem ← wrL obj base mem p v
    wrsL obj base mem (p + 1) vs

/-- base32.c:73-93 (see `Base32.encBody`). -/
def enc32Body (raw : Bool) (buf : Ptr) (obj : String) (base : Nat) (j : Nat) (out : List Byte) : Leak (List Byte) := do
  let i0 ← rdL buf (5*j)
  let i1 ← rdL buf (5*j+1)
  let i2 ← rdL buf (5*j+2)
  let i3 ← rdL buf (5*j+3)
  let i4 ← rdL buf (5*j+4)
  let byte1 := i0 >>> 3
  let byte2 := ((i0 &&& 7#8) <<< 2) ||| (i1 >>> 6)
  let byte3 := (i1 >>> 1) &&& 0x1F#8
  let byte4 := ((i1 &&& 1#8) <<< 4) ||| (i2 >>> 4)
  let byte5 := ((i2 &&& 0xF#8) <<< 1) ||| (i3 >>> 7)
  let byte6 := (i3 >>> 2) &&& 0x1F#8
  let byte7 := ((i3 &&& 3#8) <<< 3) ||| ((i4 >>> 5) &&& 7#8)
  let byte8 := i4 &&& 0x1F#8
  puts32 raw obj base out (8*j) [byte1, byte2, byte3, byte4, byte5, byte6, byte7, byte8]

/-- One `case` of the tail (see `Base32.putTail`). -/
def put32Tail (raw : Bool) (obj : String) (base : Nat) (out : List Byte) (p : Nat) (bytes : List Byte) :
    Leak (List Byte × Nat) := do
  let out ← puts32 raw obj base out p bytes
  branch (!raw)
  if !raw then do
    let out ← wrsL obj base out (p + bytes.length) (List.replicate (8 - bytes.length) (chr '='))
    pure (out, 8)
  else pure (out, bytes.length)

/-- base32.c:95-175 (see `Base32.encTail`). -/
def enc32Tail (raw : Bool) (buf : Ptr) (obj : String) (base : Nat) (n tailLen : Nat) (out : List Byte) :
    Leak (List Byte × Nat) := do
  branchOr [tailLen = 1, tailLen = 2, tailLen = 3, tailLen = 4]
  if tailLen = 1 then
    let i0 ← rdL buf (5*n)
    let byte1 := i0 >>> 3
    let byte2 := (i0 &&& 7#8) <<< 2
    put32Tail raw obj base out (8*n) [byte1, byte2]
  else if tailLen = 2 then
    let i0 ← rdL buf (5*n)
    let i1 ← rdL buf (5*n+1)
    let byte1 := i0 >>> 3
    let byte2 := ((i0 &&& 7#8) <<< 2) ||| (i1 >>> 6)
    let byte3 := (i1 >>> 1) &&& 0x1F#8
    let byte4 := (i1 &&& 1#8) <<< 4
    put32Tail raw obj base out (8*n) [byte1, byte2, byte3, byte4]
  else if tailLen = 3 then
    let i0 ← rdL buf (5*n)
    let i1 ← rdL buf (5*n+1)
    let i2 ← rdL buf (5*n+2)
    let byte1 := i0 >>> 3
    let byte2 := ((i0 &&& 7#8) <<< 2) ||| (i1 >>> 6)
    let byte3 := (i1 >>> 1) &&& 0x1F#8
    let byte4 := ((i1 &&& 1#8) <<< 4) ||| (i2 >>> 4)
    let byte5 := (i2 &&& 0xF#8) <<< 1
    put32Tail raw obj base out (8*n) [byte1, byte2, byte3, byte4, byte5]
  else if tailLen = 4 then
    let i0 ← rdL buf (5*n)
    let i1 ← rdL buf (5*n+1)
    let i2 ← rdL buf (5*n+2)
    let i3 ← rdL buf (5*n+3)
    let byte1 := i0 >>> 3
    let byte2 := ((i0 &&& 7#8) <<< 2) ||| (i1 >>> 6)
    let byte3 := (i1 >>> 1) &&& 0x1F#8
    let byte4 := ((i1 &&& 1#8) <<< 4) ||| (i2 >>> 4)
    let byte5 := ((i2 &&& 0xF#8) <<< 1) ||| (i3 >>> 7)
    let byte6 := (i3 >>> 2) &&& 0x1F#8
    let byte7 := (i3 &&& 3#8) <<< 3
    put32Tail raw obj base out (8*n) [byte1, byte2, byte3, byte4, byte5, byte6, byte7]
  else pure (out, 0)

/-- `_fingera_to_base32`, base32.c:65-177; the output lies at offset `base` of the array `obj`. -/
def toBase32Impl (buf : Ptr) (bufSize : Nat) (obj : String) (base : Nat) (out : List Byte) (raw : Bool) :
    Leak (List Byte × Nat) := do
  branch raw
  let out ← forL (enc32Body raw buf obj base) 0 (bufSize / 5) out
  let (out, inc) ← enc32Tail raw buf obj base (bufSize / 5) (bufSize % 5) out
  pure (out, bufSize / 5 * 8 + inc)

/-- `fingera_to_base32`, base32.c:179-181. -/
def toBase32 (buf : Ptr) (bufSize : Nat) (out : List Byte) : Leak (List Byte) := do
  let (out, _) ← toBase32Impl buf bufSize "str" 0 out false
  pure out

/-- `fingera_to_base32_raw`, base32.c:183-185. -/
def toBase32Raw (buf : Ptr) (bufSize : Nat) (obj : String) (base : Nat) (out : List Byte) : Leak (List Byte × Nat) :=
  toBase32Impl buf bufSize obj base out true

/-- `strchr(str, c)`: looks at every character up to the first `c` or NUL. -/
def strchrFromL (obj : String) (c : Byte) : Nat → List Byte → Nat → Leak (Option Nat)
  | _, [], _ => .ub
  | p, b :: r, i => do
    seen [.load obj p 1] (.ok ())
    branchOr [b = c, b = 0#8]
    if b = c then pure (some i)
    else if b = 0 then pure none
    else strchrFromL obj c (p + 1) r (i + 1)

/-- `base32_strlen`, base32.c:187-191. -/
def strlen32 (str : Ptr) (strLen : Nat) : Leak Nat := do
  let e ← strchrFromL str.obj (chr '=') str.base str.mem 0
  branch e.isNone
  match e with
  | none => pure strLen
  | some e => pure e

/-- `decode_string[str[i]]`, base32.c:211 and e.g. 213 (see `Base32.decAt`). -/
def dec32 (cs raw : Bool) (str : Ptr) (i : Nat) : Leak Byte := do
  let c ← rdL str i
  if cs && c.toNat ≥ 128 then .ub
  else lookL (if raw then "BASE32_DECODE_RAW" else "BASE32_DECODE") 1 (Base32.decodeStr raw) c.toNat

/-- base32.c:212-233 (see `Base32.decBody`). -/
def dec32Body (cs raw : Bool) (str : Ptr) (obj : String) (base : Nat) (i : Nat) (buf : List Byte) :
    Leak (Step (List Byte) (List Byte × Nat)) := do
  let byte1 ← dec32 cs raw str (i*8)
  let byte2 ← dec32 cs raw str (i*8+1)
  let byte3 ← dec32 cs raw str (i*8+2)
  let byte4 ← dec32 cs raw str (i*8+3)
  let byte5 ← dec32 cs raw str (i*8+4)
  let byte6 ← dec32 cs raw str (i*8+5)
  let byte7 ← dec32 cs raw str (i*8+6)
  let byte8 ← dec32 cs raw str (i*8+7)
  branchOr [byte1 = 0xFF#8, byte2 = 0xFF#8, byte3 = 0xFF#8, byte4 = 0xFF#8, byte5 = 0xFF#8, byte6 = 0xFF#8,
    byte7 = 0xFF#8, byte8 = 0xFF#8]
  if byte1 = 0xFF#8 ∨ byte2 = 0xFF#8 ∨ byte3 = 0xFF#8 ∨ byte4 = 0xFF#8 ∨
     byte5 = 0xFF#8 ∨ byte6 = 0xFF#8 ∨ byte7 = 0xFF#8 ∨ byte8 = 0xFF#8 then
    pure (.stop (buf, 5*i))
  else
    let buf ← wrsL obj base buf (5*i)
      [(byte1 <<< 3) ||| (byte2 >>> 2),
       (byte2 <<< 6) ||| (byte3 <<< 1) ||| (byte4 >>> 4),
       (byte4 <<< 4) ||| (byte5 >>> 1),
       (byte5 <<< 7) ||| (byte6 <<< 2) ||| (byte7 >>> 3),
       (byte7 <<< 5) ||| byte8]
    pure (.next buf)

/-- base32.c:234-253 (see `Base32.decTail`). -/
def dec32Tail (cs raw : Bool) (str : Ptr) (obj : String) (base : Nat) (n tail : Nat) (buf : List Byte) :
    Leak (List Byte × Nat) := do
  let tailBytes ← lookL "TAIL_TO_BYTES" 1 Base32.TAIL_TO_BYTES tail
  branch (tailBytes > 0)
  if tailBytes > 0 then
    let byte1 ← dec32 cs raw str (n*8)
    let byte2 ← dec32 cs raw str (n*8+1)
    let buf ← wrL obj base buf (5*n) ((byte1 <<< 3) ||| (byte2 >>> 2))
    branch (tailBytes > 1)
    if tailBytes > 1 then
      let byte3 ← dec32 cs raw str (n*8+2)
      let byte4 ← dec32 cs raw str (n*8+3)
      let buf ← wrL obj base buf (5*n+1) ((byte2 <<< 6) ||| (byte3 <<< 1) ||| (byte4 >>> 4))
      branch (tailBytes > 2)
      if tailBytes > 2 then
        let byte5 ← dec32 cs raw str (n*8+4)
        let buf ← wrL obj base buf (5*n+2) ((byte4 <<< 4) ||| (byte5 >>> 1))
        branch (tailBytes > 3)
        if tailBytes > 3 then
          let byte6 ← dec32 cs raw str (n*8+5)
          let byte7 ← dec32 cs raw str (n*8+6)
          let buf ← wrL obj base buf (5*n+3) ((byte5 <<< 7) ||| (byte6 <<< 2) ||| (byte7 >>> 3))
          pure (buf, 5*n+4)
        else pure (buf, 5*n+3)
      else pure (buf, 5*n+2)
    else pure (buf, 5*n+1)
  else pure (buf, 5*n)

/-- `_fingera_from_base32`, base32.c:204-254. -/
def fromBase32Impl (cs : Bool) (str : Ptr) (strLen : Nat) (obj : String) (base : Nat) (buf : List Byte) (raw : Bool) :
    Leak (List Byte × Nat) := do
  let newLen ← strlen32 str strLen
  branch raw
  match ← forBL (dec32Body cs raw str obj base) 0 (newLen / 8) buf with
  | .stop r => pure r
  | .next buf => dec32Tail cs raw str obj base (newLen / 8) (newLen % 8) buf

/-- `fingera_from_base32`, base32.c:256-258. -/
def fromBase32 (cs : Bool) (str : Ptr) (strLen : Nat) (buf : List Byte) : Leak (List Byte × Nat) :=
  fromBase32Impl cs str strLen "buf" 0 buf false

/-- `fingera_from_base32_raw`, base32.c:260-262. -/
def fromBase32Raw (cs : Bool) (str : Ptr) (strLen : Nat) (obj : String) (base : Nat) (buf : List Byte) :
    Leak (List Byte × Nat) := fromBase32Impl cs str strLen obj base buf true

/-! ### `src/compress_integer.c` -/

/-- compress_integer.c:10-15 (see `CompressInteger.encLoop`). -/
def varintLoop : Nat → U64 → Nat → List Byte → Leak (Nat × List Byte)
  | 0, _, _, _ => .ub
  | fuel+1, value, len, tmp => do
    branch (len ≠ 0)
    let tmp ← wrL "tmp" 0 tmp len (((value &&& 0x7F#64) ||| (if len ≠ 0 then 0x80#64 else 0x00#64)).setWidth 8)
    branch (value ≤ 0x7F#64)
    if value ≤ 0x7F#64 then pure (len, tmp)
    else varintLoop fuel ((value >>> 7) - 1#64) (len+1) tmp

/-- compress_integer.c:17-19: `k` bytes to go; the test comes after each of them. -/
def varintCopy (tmp : List Byte) (len : Nat) (j : Nat) : Nat → List Byte → Leak (List Byte)
  | 0, out => pure out
  | k+1, out => do
    let b ← rdL ⟨"tmp", 0, tmp⟩ (len - j)
    let out ← wrL "buf" 0 out j b
    branch (len - j ≠ 0)
    varintCopy tmp len (j + 1) k out

/-- `fingera_encode_varint`, compress_integer.c:5-22. -/
def encodeVarint (tmp0 : List Byte) (value : U64) (buf : List Byte) : Leak (List Byte × Nat) := do
  let (len, tmp) ← varintLoop 11 value 0 tmp0
  let out ← varintCopy tmp len 0 (len+1) buf
  pure (out, len+1)

/-- compress_integer.c:28-36; `*out` is not an array and lies at a fixed place. -/
def decVarintBody (buf : Ptr) (i : Nat) (out : U64) : Leak (Step U64 (U64 × Nat)) := do
  let byte ← rdL buf i
  let out := (out <<< 7) ||| (byte &&& 0x7F#8).setWidth 64
  branch (byte &&& 0x80#8 ≠ 0#8)
  if byte &&& 0x80#8 ≠ 0#8 then pure (.next (out + 1#64))
  else pure (.stop (out, i+1))

/-- `fingera_decode_varint`, compress_integer.c:24-38. -/
def decodeVarint (buf : Ptr) (size : Nat) : Leak (U64 × Nat) := do
  branch (size > 10)
  let size := if size > 10 then 10 else size
  match ← forBL (decVarintBody buf) 0 size 0#64 with
  | .stop r => pure r
  | .next out => pure (out, 0)

/-- `fingera_encode_zigzag`, compress_integer.c:40-46. -/
def encodeZigzag (tmp0 : List Byte) (value : BitVec 64) (buf : List Byte) : Leak (List Byte × Nat) := do
  let uvalue ← seen [.call "llabs"] (CompressInteger.llabs value)
  branch (value.slt 0#64)
  let sign := if value.slt 0#64 then 1#64 else 0#64
  encodeVarint tmp0 ((uvalue <<< 1) ||| sign) buf

/-- `fingera_decode_zigzag`, compress_integer.c:48-62. -/
def decodeZigzag (buf : Ptr) (size : Nat) (out0 : BitVec 64) : Leak (BitVec 64 × Nat) := do
  let (uvalue, len) ← decodeVarint buf size
  branch (len > 0)
  if len > 0 then
    let sign := uvalue &&& 1#64
    let uvalue := uvalue >>> 1
    branch (sign ≠ 0#64)
    if sign ≠ 0#64 then pure (-uvalue, len) else pure (uvalue, len)
  else pure (out0, len)

/-! ### `src/btc/bech32.c` -/

/-- `poly_mod`, bech32.c:34-36. -/
def polyMod (value : Byte) (c : U32) : Leak U32 := do
  let t ← lookL "BECH32_POLY_TABLE" 4 Bech32.BECH32_POLY_TABLE (c >>> 25).toNat
  pure (((c &&& 0x1ffffff#32) <<< 5) ^^^ t ^^^ value.setWidth 32)

/-- `for (i = 0; i < n; i++) mod = poly_mod(f(mem[i]), mod)`, e.g. bech32.c:41-43. -/
def modLoop (f : Byte → Byte) (mem : Ptr) (n : Nat) (mod : U32) : Leak U32 :=
  forL (fun i mod => do polyMod (f (← rdL mem i)) mod) 0 n mod

/-- bech32.c:40-51 and 64-75. -/
def modAll (hrp : Ptr) (hrpLen : Nat) (b32 : Ptr) (b32Size : Nat) : Leak U32 := do
  let mod ← modLoop (fun c => c >>> 5) hrp hrpLen 1#32
  let mod ← polyMod 0#8 mod
  let mod ← modLoop (fun c => c &&& 0x1F#8) hrp hrpLen mod
  modLoop (fun c => c) b32 b32Size mod

/-- `create_checksum`, bech32.c:38-60. -/
def createChecksum (hrp : Ptr) (hrpLen : Nat) (b32 : Ptr) (b32Size : Nat) (checksum : List Byte) : Leak (List Byte) := do
  let mod ← modAll hrp hrpLen b32 b32Size
  let mod ← forL (fun _ mod => polyMod 0#8 mod) 0 6 mod
  let mod := mod ^^^ 1#32
  forL (fun i checksum => wrL "checksum" 0 checksum i (((mod >>> (5 * (5 - i))) &&& 31#32).setWidth 8)) 0 6 checksum

/-- `verify_checksum`, bech32.c:62-80. -/
def verifyChecksum (hrp : Ptr) (hrpLen : Nat) (b32 : Ptr) (b32Size : Nat) (checksum : List Byte) : Leak Bool := do
  let mod ← modAll hrp hrpLen b32 b32Size
  let mod ← modLoop (fun c => c) ⟨"checksum", 0, checksum⟩ 6 mod
  branch (mod = 1#32)
  pure (mod == 1#32)

/-- `fingera_bech32_encode`, bech32.c:82-97. -/
def bech32Encode (hrp : Ptr) (hrpLen : Nat) (b32 : Ptr) (b32Size : Nat) (result : List Byte) : Leak (List Byte) := do
  let checksum ← createChecksum hrp hrpLen b32 b32Size (List.replicate 6 0xAA#8)
  let result ← memcpyL "result" result 0 hrp hrpLen
  let result ← wrL "result" 0 result hrpLen (chr '1')
  let result ← forL (fun i result => do
    let v ← rdL b32 i
    seen [.branch (v.toNat < 32)] (assertC (v.toNat < 32))
    wrL "result" 0 result (hrpLen + 1 + i) (← lookL "BECH32_ENCODE" 1 Bech32.BECH32_ENCODE v.toNat)) 0 b32Size result
  forL (fun i result => do
    let v ← rdL ⟨"checksum", 0, checksum⟩ i
    wrL "result" 0 result (hrpLen + 1 + b32Size + i) (← lookL "BECH32_ENCODE" 1 Bech32.BECH32_ENCODE v.toNat)) 0 6 result

/-- bech32.c:102-105 (see `Bech32.illegalBody`).  The conditions of each `if`, in their order. -/
def illegalBody (str : Ptr) (i : Nat) (lu : Bool × Bool) : Leak (Step (Bool × Bool) Bool) := do
  let c ← rdL str i
  seen ([.branch (c.toNat ≥ 97)] ++ (if c.toNat ≥ 97 then [.branch (c.toNat ≤ 122)] else [])) (.ok ())
  if c.toNat ≥ 97 ∧ c.toNat ≤ 122 then pure (.next (true, lu.2))
  else do
    seen ([.branch (c.toNat ≥ 65)] ++ (if c.toNat ≥ 65 then [.branch (c.toNat ≤ 90)] else [])) (.ok ())
    if c.toNat ≥ 65 ∧ c.toNat ≤ 90 then pure (.next (lu.1, true))
    else do
      branchOr [c.toNat < 33, c.toNat > 126]
      if c.toNat < 33 ∨ c.toNat > 126 then pure (.stop true) else pure (.next lu)

/-- `is_illegal`, bech32.c:99-109. -/
def isIllegal (str : Ptr) (size : Nat) : Leak Bool := do
  match ← forBL (illegalBody str) 0 size (false, false) with
  | .stop r => pure r
  | .next (lower, upper) => do
    seen ([.branch lower] ++ (if lower then [.branch upper] else [])) (.ok ())
    pure (lower && upper)

/-- bech32.c:128-130 and 134-136 (see `Bech32.decodeBody`). -/
def decodeBody (str : Ptr) (dst : String) (p i : Nat) (out : List Byte) : Leak (Step (List Byte) (List Byte)) := do
  let c ← rdL str (p + i)
  let rev ← lookL "BECH32_DECODE" 1 Bech32.BECH32_DECODE c.toNat
  branch (rev = -1)
  if rev = -1 then pure (.stop out)
  else do
    let out ← wrL dst 0 out i (BitVec.ofInt 8 rev)
    pure (.next out)

/-- bech32.c:127-131 and 133-137 (see `Bech32.decodeChars`). -/
def decodeChars (str : Ptr) (dst : String) (p n : Nat) (out : List Byte) : Leak (List Byte × Bool) := do
  match ← forBL (decodeBody str dst p) 0 n out with
  | .stop out => pure (out, false)
  | .next out => pure (out, true)

/-- bech32.c:122-140 (see `Bech32.decodeAt`). -/
def decodeAt (str : Ptr) (strLen pos : Nat) (ho : String) (hrp : List Byte) (bo : String) (b32 : List Byte) :
    Leak Bech32.DecodeResult := do
  let hrp ← forL (fun i hrp => do
    let c ← rdL str i
    seen ([.call "isupper", .branch (65 ≤ c.toNat ∧ c.toNat ≤ 90)] ++
      (if 65 ≤ c.toNat ∧ c.toNat ≤ 90 then [.call "tolower"] else [])) (.ok ())
    wrL ho 0 hrp i (Bech32.toLower c)) 0 pos hrp
  let n ← seen [] (untilPtr (pos + 1) (strLen - 6))
  let (b32, good) ← decodeChars str bo (pos + 1) n b32
  if !good then pure ⟨-4, hrp, pos, b32⟩
  else do
    let (checksum, good) ← decodeChars str "checksum" (strLen - 6) 6 (List.replicate 6 0xAA#8)
    if !good then pure ⟨-4, hrp, pos, b32⟩
    else do
      let v ← verifyChecksum ⟨ho, 0, hrp⟩ pos ⟨bo, 0, b32⟩ n checksum
      branch (!v)
      pure ⟨if v then (n : Int) else -5, hrp, pos, b32⟩

/-- `strrchr(str, c)`: looks at every character up to the NUL. -/
def strrchrFromL (obj : String) (c : Byte) : Nat → List Byte → Nat → Option Nat → Leak (Option Nat)
  | _, [], _, _ => .ub
  | p, b :: r, i, last => do
    seen [.load obj p 1] (.ok ())
    branchOr [b = c, b = 0#8]
    if b = c then strrchrFromL obj c (p + 1) r (i + 1) (some i)
    else if b = 0#8 then pure last
    else strrchrFromL obj c (p + 1) r (i + 1) last

/-- `fingera_bech32_decode`, bech32.c:111-141; `hrp` is the array `ho`, `b32` the array `bo`. -/
def bech32Decode (str : Ptr) (strLen : Nat) (ho : String) (hrp : List Byte) (hrpSize : Nat) (bo : String) (b32 : List Byte) :
    Leak Bech32.DecodeResult := do
  let bad ← isIllegal str strLen
  branch bad
  if bad then pure ⟨-1, hrp, hrpSize, b32⟩
  else do
    let at1 ← strrchrFromL str.obj (chr '1') str.base str.mem 0 none
    branch at1.isNone
    match at1 with
    | none => pure ⟨-2, hrp, hrpSize, b32⟩
    | some pos => do
      branchOr [strLen > 90, pos = 0, pos + 7 > strLen, strLen ≤ 7]
      if strLen > 90 ∨ pos = 0 ∨ pos + 7 > strLen ∨ strLen ≤ 7 then pure ⟨-2, hrp, hrpSize, b32⟩
      else do
        branch (hrpSize < pos)
        if hrpSize < pos then pure ⟨-3, hrp, hrpSize, b32⟩
        else decodeAt str strLen pos ho hrp bo b32

/-! ### `src/btc/address.c` -/

/-- `fingera_to_address_pubkey`, address.c:10-20. -/
def toAddressPubkey (host : Host) (keyId : Ptr) (keyIdSize : Nat) (out : List Byte) (outSize : Nat)
    (param : ChainParameters) : Leak (List Byte × Nat) := do
  branch (outSize < Base58Check.toBase58CheckLength keyIdSize param.prefixPubkeyAddressSize)
  if outSize < Base58Check.toBase58CheckLength keyIdSize param.prefixPubkeyAddressSize then pure (out, 0)
  else toBase58Check host keyId keyIdSize param.prefixPubkeyAddress param.prefixPubkeyAddressSize out

/-- `fingera_to_address_script`, address.c:22-32. -/
def toAddressScript (host : Host) (scriptId : Ptr) (scriptIdSize : Nat) (out : List Byte) (outSize : Nat)
    (param : ChainParameters) : Leak (List Byte × Nat) := do
  branch (outSize < Base58Check.toBase58CheckLength scriptIdSize param.prefixScriptAddressSize)
  if outSize < Base58Check.toBase58CheckLength scriptIdSize param.prefixScriptAddressSize then pure (out, 0)
  else toBase58Check host scriptId scriptIdSize param.prefixScriptAddress param.prefixScriptAddressSize out

/-- address.c:41-50, 60-69, 80-92 (see `Address.witnessEncode`). -/
def witnessEncode (buffer : List Byte) (version : Byte) (program : Ptr) (programSize : Nat)
    (out : List Byte) (outSize : Nat) (param : ChainParameters) : Leak (List Byte × Nat) := do
  let buffer ← wrL "buffer" 0 buffer 0 version
  let (rest, n) ← toBase32Raw program programSize "buffer" 1 (buffer.drop 1)
  let buffer := buffer.take 1 ++ rest
  let bufSize := n + 1
  let resultSize := Bech32.encodeLength param.bech32HrpSize bufSize
  branch (outSize < resultSize)
  if outSize < resultSize then pure (out, 0)
  else do
    let out ← bech32Encode ⟨"bech32_hrp", 0, param.bech32Hrp⟩ param.bech32HrpSize ⟨"buffer", 0, buffer⟩ bufSize out
    pure (out, resultSize)

/-- `fingera_to_address_witnessv0_keyhash`, address.c:34-51. -/
def toAddressWitnessV0Keyhash (nd : Bool) (keyHash : Ptr) (keyHashSize : Nat) (out : List Byte) (outSize : Nat)
    (param : ChainParameters) : Leak (List Byte × Nat) := do
  assertL nd (keyHashSize == 20)
  branch (keyHashSize ≠ 20)
  if keyHashSize ≠ 20 then pure (out, 0)
  else witnessEncode (List.replicate 64 0xAA#8) 0#8 keyHash keyHashSize out outSize param

/-- `fingera_to_address_witnessv0_scripthash`, address.c:53-70. -/
def toAddressWitnessV0Scripthash (nd : Bool) (scriptHash : Ptr) (scriptHashSize : Nat) (out : List Byte)
    (outSize : Nat) (param : ChainParameters) : Leak (List Byte × Nat) := do
  assertL nd (scriptHashSize == 32)
  branch (scriptHashSize ≠ 32)
  if scriptHashSize ≠ 32 then pure (out, 0)
  else witnessEncode (List.replicate 64 0xAA#8) 0#8 scriptHash scriptHashSize out outSize param

/-- `fingera_to_address_witness_unknown`, address.c:72-93. -/
def toAddressWitnessUnknown (vp : Ptr) (vpSize : Nat) (out : List Byte) (outSize : Nat)
    (param : ChainParameters) : Leak (List Byte × Nat) := do
  branchOr [vpSize < 3, vpSize > 41]
  if vpSize < 3 ∨ vpSize > 41 then pure (out, 0)
  else do
    let version ← rdL vp 0
    branchOr [version.toNat < 1, version.toNat > 16]
    if version.toNat < 1 ∨ version.toNat > 16 then pure (out, 0)
    else witnessEncode (List.replicate 128 0xAA#8) version (vp.add 1) (vpSize - 1) out outSize param

/-- address.c:111-139 (see `Address.decodeWitness`). -/
def decodeWitness (cs : Bool) (buffer : List Byte) (bech32Size : Nat) (out : List Byte) (outSize : Nat) :
    Leak Address.Decoded := do
  let need ← seen [.load "TAIL_TO_BYTES" ((bech32Size - 1) % 8) 1] (Base32.fromBase32RawLength (bech32Size - 1))
  branch (outSize ≥ need)
  if outSize ≥ need then do
    let version ← rdL ⟨"buffer", 0, buffer⟩ 0
    branch (version = 0#8)
    if version = 0#8 then do
      let (out, n) ← fromBase32Raw cs ⟨"buffer", 1, buffer.drop 1⟩ (bech32Size - 1) "out" 0 out
      branchOr [n = 20, n = 32]
      if n = 20 then pure ⟨.witnessV0Keyhash, out, n⟩
      else if n = 32 then pure ⟨.witnessV0Scripthash, out, n⟩
      else pure ⟨.bad, out, n⟩
    else do
      let out ← wrL "out" 0 out 0 version
      let (rest, n) ← fromBase32Raw cs ⟨"buffer", 1, buffer.drop 1⟩ (bech32Size - 1) "out" 1 (out.drop 1)
      let out := out.take 1 ++ rest
      let n := n + 1
      branchOr [version.toNat > 16, n < 3, n > 41]
      if version.toNat > 16 ∨ n < 3 ∨ n > 41 then pure ⟨.bad, out, n⟩
      else pure ⟨.witnessUnknown, out, n⟩
  else pure ⟨.bad, out, outSize⟩

/-- `decode_bech32`, address.c:95-140 (see `Address.decodeBech32`). -/
def decodeBech32 (cs : Bool) (stack : List Byte) (str : Ptr) (strLen : Nat) (out : List Byte) (outSize : Nat)
    (param : ChainParameters) : Leak Address.Decoded := do
  branch (7 ≤ strLen ∧ strLen - 7 ≤ 128)
  let r ← bech32Decode str strLen "bech32_hrp" (List.replicate 16 0xAA#8) 16 "buffer" (Address.buffer stack strLen)
  branchOr [r.ret < 1, r.hrpSize ≠ param.bech32HrpSize]
  if r.ret < 1 ∨ r.hrpSize ≠ param.bech32HrpSize then do
    branch (7 ≤ strLen ∧ strLen - 7 ≤ 128)
    pure ⟨.bad, out, outSize⟩
  else do
    let same ← memeqL ⟨"bech32_hrp", 0, r.hrp⟩ ⟨"param_bech32_hrp", 0, param.bech32Hrp⟩ r.hrpSize
    if !same then do
      branch (7 ≤ strLen ∧ strLen - 7 ≤ 128)
      pure ⟨.bad, out, outSize⟩
    else do
      let d ← decodeWitness cs r.b32 r.ret.toNat out outSize
      branch (7 ≤ strLen ∧ strLen - 7 ≤ 128)
      pure d

/-- address.c:150-155 and 156-162 (see `Address.hasPrefix`). -/
def hasPrefix (out : List Byte) (size : Nat) (name : String) (pre : List Byte) (preSize : Nat) : Leak Bool := do
  branch (size ≥ preSize)
  if size ≥ preSize then memeqL ⟨"out", 0, out⟩ ⟨name, 0, pre⟩ preSize else pure false

/-- address.c:153-155 and 159-161 (see `Address.strip`). -/
def strip (kind : Address.Kind) (out : List Byte) (size preSize : Nat) : Leak Address.Decoded := do
  let out ← memcpyL "out" out 0 ⟨"out", preSize, out.drop preSize⟩ (size - preSize)
  pure ⟨kind, out, size - preSize⟩

/-- `fingera_btc_address_decode`, address.c:142-165. -/
def addressDecode (host : Host) (cs : Bool) (stack : List Byte) (str : Ptr) (strLen : Nat)
    (out : List Byte) (outSize : Nat) (param : ChainParameters) : Leak Address.Decoded := do
  branch (outSize < Base58Check.fromBase58CheckLength strLen)
  if outSize < Base58Check.fromBase58CheckLength strLen then pure ⟨.bad, out, outSize⟩
  else do
    let (out, size) ← fromBase58Check host cs str strLen "out" out
    branch (size ≠ 0)
    if size ≠ 0 then do
      let isPubkey ← hasPrefix out size "prefix_pubkey_address" param.prefixPubkeyAddress param.prefixPubkeyAddressSize
      if isPubkey then strip .pubkey out size param.prefixPubkeyAddressSize
      else do
        let isScript ← hasPrefix out size "prefix_script_address" param.prefixScriptAddress param.prefixScriptAddressSize
        if isScript then strip .script out size param.prefixScriptAddressSize
        else decodeBech32 cs stack str strLen out outSize param
    else decodeBech32 cs stack str strLen out outSize param

end Leakage
