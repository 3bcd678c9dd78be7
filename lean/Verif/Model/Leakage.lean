import Verif.Model.Sha2
import Verif.Model.Sha1
import Verif.Model.BtcHash

/-!
What an observer of the machine sees of the hash functions besides their results: which way every
branch goes, and where every access to an array lies (caches and branch predictors give these away).
The functions of `Verif.Model.Sha2`, `Sha1`, `Ripemd160` and `BtcHash` are modelled once more, with
these observations.  Variables that are not arrays (`a`, `w0`, `t1`, …) lie at fixed places or in
registers and arithmetic takes the same time for all operands; they give no observations.
-/
namespace Leakage
open Endian

/-- What can be observed of one step: an access to `n` bytes at offset `off` of a named array, and the
direction of a branch, and the call of a library function (what happens inside is not looked at). -/
inductive Ev where
  | load (obj : String) (off n : Nat)
  | store (obj : String) (off n : Nat)
  | branch (taken : Bool)
  | call (f : String)
deriving DecidableEq, Repr

/-- Outcome of code that is being watched: like `Res`, with what was observed until the return. -/
inductive Leak (α : Type) where
  | ok (a : α) (t : List Ev)
  | ub
  | abort
deriving DecidableEq, Repr

/-- A step with outcome `r` that is observed as `t`. -/
def seen {α : Type} (t : List Ev) : Res α → Leak α
  | .ok a => .ok a t
  | .ub => .ub
  | .abort => .abort

/-- What the code after a piece of code that was observed as `t` adds. -/
def Leak.after {β : Type} (t : List Ev) : Leak β → Leak β
  | .ok b t' => .ok b (t ++ t')
  | .ub => .ub
  | .abort => .abort

/-- One piece of code after the other. -/
def Leak.bind {α β : Type} : Leak α → (α → Leak β) → Leak β
  | .ok a t, k => (k a).after t
  | .ub, _ => .ub
  | .abort, _ => .abort

instance : Monad Leak where
  pure a := seen [] (.ok a)
  bind := Leak.bind

/-- The bytes from a pointer on, and where it points. -/
structure Ptr where
  obj : String
  base : Nat
  mem : List Byte

/-- `p + k`. -/
def Ptr.add (p : Ptr) (k : Nat) : Ptr := ⟨p.obj, p.base + k, p.mem.drop k⟩

/-- A step that is a branch on `b`. -/
def branch (b : Bool) : Leak Unit := seen [.branch b] (.ok ())

/-- `memcpy(dst + off, src, n)`. -/
def memcpyL (obj : String) (dst : List Byte) (off : Nat) (src : Ptr) (n : Nat) : Leak (List Byte) :=
  seen [.load src.obj src.base n, .store obj off n] (memcpy dst off src.mem n)

/-- `memset(dst + off, v, n)`. -/
def memsetL (obj : String) (dst : List Byte) (off : Nat) (v : Byte) (n : Nat) : Leak (List Byte) :=
  seen [.store obj off n] (memset dst off v n)

/-- `fingera_cleanse(mem, size)`, cleanse.c 8-15: a `memset` the compiler does not remove.  What it
leaves in the array is not looked at any more. -/
def cleanseL (obj : String) (len : Nat) : Leak Unit := seen [.store obj 0 len] (.ok ())

/-- `dst[i] = htobe32(src[i]);` and the like for the indices `i` of a list, in its order; words have `k`
bytes, `put` converts and stores one of them.  If the C text has a loop, its test is seen before each step
(`loop`). -/
def storeWords {w : Nat} (put : List Byte → Nat → BitVec w → Res (List Byte)) (k : Nat) (src dst : String)
    (loop : List Ev) (xs : List (BitVec w)) : List Nat → List Byte → Leak (List Byte)
  | [], mem => pure mem
  | i :: is, mem => do
    let x ← seen (loop ++ [.load src (k * i) k]) (rd xs i)
    let mem ← seen [.store dst (k * i) k] (put mem (k * i) x)
    storeWords put k src dst loop xs is mem

/-! ### The message loop and the padding -/
section
variable {δ : Type}

/-- `while (msg_len >= B) …`: `HashCommon.blocks` (sha2.c 676-680, 720-724; sha1.c 127-131;
ripemd160.c 293-297), watched. -/
def blocks (tr : δ → Ptr → Leak δ) (B : Nat) : Nat → δ → Ptr → Nat → Leak (δ × Ptr × Nat)
  | 0, _, _, _ => .ub
  | fuel+1, digest, buf, n =>
    if n ≥ B then do
      branch true
      let digest ← tr digest buf
      blocks tr B fuel digest (buf.add B) (n - B)
    else do
      branch false
      pure (digest, buf, n)

/-- `HashCommon.finish` (sha2.c 681-691, 725-735; sha1.c 132-142; ripemd160.c 298-308), watched. -/
def finish (tr : δ → Ptr → Leak δ) (B thr : Nat) (chunkEnd : List Byte)
    (digest : δ) (msg : Ptr) (msgLen : Nat) : Leak δ := do
  let (digest, buf, n) ← blocks tr B (msgLen + 1) digest msg msgLen
  let last ← memsetL "last_chunk" (List.replicate B 0xAA#8) 0 0#8 B
  let last ← memcpyL "last_chunk" last 0 buf n
  let last ← seen [.store "last_chunk" n 1] (wr last n 0x80#8)
  let (digest, last) ←
    if n > thr then do
      branch true
      let digest ← tr digest ⟨"last_chunk", 0, last⟩
      let last ← memsetL "last_chunk" last 0 0#8 B
      pure (digest, last)
    else do
      branch false
      pure (digest, last)
  let last ← seen [.store "last_chunk" (B - 8) 8] (memcpy last (B - 8) chunkEnd 8)
  tr digest ⟨"last_chunk", 0, last⟩
end

/-! ### `src/hash/sha2.c` -/

/-- `be32(chunk, off)`, endian.h 153-155. -/
def be32 (host : Host) (p : Ptr) (off : Nat) : Leak U32 :=
  seen [.load p.obj (p.base + off) 4] (readBig32 host p.mem off)
/-- `be64(chunk, off)`, endian.h 156-158. -/
def be64 (host : Host) (p : Ptr) (off : Nat) : Leak U64 :=
  seen [.load p.obj (p.base + off) 8] (readBig64 host p.mem off)
/-- `le32(chunk, off)`, endian.h 147-149. -/
def le32 (host : Host) (p : Ptr) (off : Nat) : Leak U32 :=
  seen [.load p.obj (p.base + off) 4] (readLittle32 host p.mem off)

section
open Sha2
variable {w : Nat}

/-- `Sha2.evalTerm`, watched. -/
def evalTerm (m : Macros w) (be : Nat → Leak (BitVec w)) (W : List (Option (BitVec w))) :
    Term → Leak (BitVec w)
  | .be off => be off
  | .w i => seen [] (readW W i)
  | .s0 i => do
    let x ← seen [] (readW W i)
    pure (m.s0 x)
  | .s1 i => do
    let x ← seen [] (readW W i)
    pure (m.s1 x)
  | .c v => pure (BitVec.ofNat w v)

/-- `Sha2.evalSum`, watched. -/
def evalSum (m : Macros w) (be : Nat → Leak (BitVec w)) (W : List (Option (BitVec w))) :
    BitVec w → List Term → Leak (BitVec w)
  | acc, [] => pure acc
  | acc, t :: ts => do
    let x ← evalTerm m be W t
    evalSum m be W (acc + x) ts

/-- `Sha2.evalOp`, watched. -/
def evalOp (m : Macros w) (be : Nat → Leak (BitVec w)) (W : List (Option (BitVec w))) :
    WOp → Leak (BitVec w × List (Option (BitVec w)))
  | .none => pure (0#w, W)
  | .use ts => do
    let x ← evalSum m be W 0#w ts
    pure (x, W)
  | .assign i ts => do
    let x ← evalSum m be W 0#w ts
    pure (x, W.set i (some x))
  | .plus i ts => do
    let x ← evalSum m be W 0#w ts
    let y ← seen [] (readW W i)
    pure (y + x, W.set i (some (y + x)))

/-- `ROUND32`, `ROUND64`, sha2.c 22-35, watched (see `Sha2.execRound`). -/
def execRound (m : Macros w) (be : Nat → Leak (BitVec w)) (r : Round)
    (R : List (BitVec w)) (W : List (Option (BitVec w))) :
    Leak (List (BitVec w) × List (Option (BitVec w))) := do
  let (x, W) ← evalOp m be W r.op
  let v := fun j => R.getD (r.regs.getD j 0) 0#w
  let t1 := m.t1 (v 7) (v 4) (v 5) (v 6) (BitVec.ofNat w r.k) x
  let t2 := m.t2 (v 0) (v 1) (v 2)
  let R := R.set (r.regs.getD 3 0) (v 3 + t1)
  let R := R.set (r.regs.getD 7 0) (t1 + t2)
  pure (R, W)

/-- A sequence of rounds. -/
def exec (m : Macros w) (be : Nat → Leak (BitVec w)) : List Round →
    List (BitVec w) → List (Option (BitVec w)) → Leak (List (BitVec w) × List (Option (BitVec w)))
  | [], R, W => pure (R, W)
  | r :: rs, R, W => do
    let (R, W) ← execRound m be r R W
    exec m be rs R W

/-- `a = s[0], b = s[1], …` for the `k` words of the array. -/
def takeState {w : Nat} (obj : String) (bytes k : Nat) (s : List (BitVec w)) : Leak (List (BitVec w)) :=
  seen ((List.range k).map (fun i => .load obj (bytes * i) bytes)) (.ok s)

/-- `s[0] += a; s[1] += b; …`. -/
def addState {w : Nat} (obj : String) (bytes k : Nat) (s R : List (BitVec w)) : Leak (List (BitVec w)) :=
  seen ((List.range k).flatMap (fun i => [.load obj (bytes * i) bytes, .store obj (bytes * i) bytes]))
    (.ok (List.zipWith (· + ·) s R))

/-- `sha256_transform`, sha2.c 380-506; `obj` is the array `s` points to. -/
def sha256Transform (host : Host) (obj : String) (s : List U32) (chunk : Ptr) : Leak (List U32) := do
  let s ← takeState obj 4 8 s
  let (R, _) ← exec macros32 (be32 host chunk) sha256Prog s noW
  addState obj 4 8 s R

/-- `sha512_transform`, sha2.c 508-669. -/
def sha512Transform (host : Host) (obj : String) (s : List U64) (chunk : Ptr) : Leak (List U64) := do
  let s ← takeState obj 8 8 s
  let (R, _) ← exec macros64 (be64 host chunk) sha512Prog s noW
  addState obj 8 8 s R

/-- `_hash256_d64_transform`, sha2.c 39-378 (see `Sha2.d64Transform`). -/
def d64Transform (host : Host) (out inp : Ptr) : Leak (List Byte) := do
  let (R, W) ← exec macros32 (be32 host inp) d64Prog1 iv256 noW
  let t := List.zipWith (· + ·) R iv256
  let (R, W) ← exec macros32 (be32 host inp) d64Prog2 t W
  let W := (List.zipWith (fun x y => some (x + y)) t R) ++ W.drop 8
  let (R, _) ← exec macros32 (be32 host inp) d64Prog3 iv256 W
  seen ((List.range 8).map (fun i => .store out.obj (out.base + 4 * i) 4))
    (storeBig32 host out.mem 0 (List.zipWith (· + ·) R iv256))

/-- `sha256_final`, sha2.c 671-694. -/
def sha256Final (host : Host) (obj : String) (digest : List U32) (msg : Ptr) (msgLen append : Nat) :
    Leak (List U32) := do
  let digest ← finish (sha256Transform host obj) 64 55
    (bytes64 host (htobe64 host (bitLength msgLen append))) digest msg msgLen
  cleanseL "last_chunk" 64
  pure digest

/-- `sha512_final`, sha2.c 715-738. -/
def sha512Final (host : Host) (obj : String) (digest : List U64) (msg : Ptr) (msgLen append : Nat) :
    Leak (List U64) := do
  let digest ← finish (sha512Transform host obj) 128 111
    (bytes64 host (htobe64 host (bitLength msgLen append))) digest msg msgLen
  cleanseL "last_chunk" 128
  pure digest

/-- `out[i] = htobe32(digest[i])`, sha2.c 703-710, 797-799; sha1.c 144-148. -/
def putBig32 (host : Host) (src dst : String) (loop : List Ev) (is : List Nat) (mem : List Byte)
    (xs : List U32) : Leak (List Byte) :=
  storeWords (fun mem off x => store32 host mem off (htobe32 host x)) 4 src dst loop xs is mem

/-- `out[i] = htobe64(digest[i])`, sha2.c 748-755, 844-846. -/
def putBig64 (host : Host) (src dst : String) (loop : List Ev) (is : List Nat) (mem : List Byte)
    (xs : List U64) : Leak (List Byte) :=
  storeWords (fun mem off x => store64 host mem off (htobe64 host x)) 8 src dst loop xs is mem

/-- `fingera_sha2_256`, sha2.c 696-713; `dst` is the array `hash` points to. -/
def sha2_256 (host : Host) (msg : Ptr) (msgLen : Nat) (dst : String) (hash : List Byte) :
    Leak (List Byte) := do
  let digest ← sha256Final host "digest" iv256 msg msgLen 0
  let hash ← putBig32 host "digest" dst [] [0, 1, 2, 3, 4, 5, 6, 7] hash digest
  cleanseL "digest" 32
  pure hash

/-- `fingera_sha2_512`, sha2.c 740-758 (word 1 is stored before word 0, 748-749). -/
def sha2_512 (host : Host) (msg : Ptr) (msgLen : Nat) (dst : String) (hash : List Byte) :
    Leak (List Byte) := do
  let digest ← sha512Final host "digest" iv512 msg msgLen 0
  let hash ← putBig64 host "digest" dst [] [1, 0, 2, 3, 4, 5, 6, 7] hash digest
  cleanseL "digest" 64
  pure hash

/-- `for (i = 0; i < n; i++) { key_inner[i] = buffer[i] ^ _36; key_outter[i] = buffer[i] ^ _5C; }`,
sha2.c 782-785, 829-832, from round `i` on, `k` rounds to go. -/
def xorKeys (host : Host) (buffer : List Byte) (i : Nat) : Nat → List Byte → List Byte →
    Leak (List Byte × List Byte)
  | 0, inner, outter => do
    branch false
    pure (inner, outter)
  | k+1, inner, outter => do
    branch true
    let x ← seen [.load "buffer" (8 * i) 8] (load64 host buffer (8 * i))
    let inner ← seen [.store "key_inner" (8 * i) 8] (store64 host inner (8 * i) (x ^^^ 0x3636363636363636#64))
    let x ← seen [.load "buffer" (8 * i) 8] (load64 host buffer (8 * i))
    let outter ← seen [.store "key_outter" (8 * i) 8]
      (store64 host outter (8 * i) (x ^^^ 0x5C5C5C5C5C5C5C5C#64))
    xorKeys host buffer (i + 1) k inner outter

/-- `for (i = 0; i < 8; i++) digest_inner[i] = htobe32(digest_inner[i]);`, sha2.c 790-792, 837-839: gives
the bytes of the array afterwards (`bytes` per word, `f` gives those of a word). -/
def swapInner {w : Nat} (f : BitVec w → List Byte) (bytes : Nat) (xs : List (BitVec w)) (i : Nat) :
    Nat → Leak (List Byte)
  | 0 => do
    branch false
    pure []
  | k+1 => do
    branch true
    let x ← seen [.load "digest_inner" (bytes * i) bytes] (rd xs i)
    let b ← seen [.store "digest_inner" (bytes * i) bytes] (.ok (f x))
    let r ← swapInner f bytes xs (i + 1) k
    pure (b ++ r)

/-- Filling of `buffer`, sha2.c 775-781. -/
def hmacBuffer256 (host : Host) (key : Ptr) (keyLen : Nat) : Leak (List Byte) :=
  if keyLen ≤ 64 then do
    branch true
    let buffer ← memcpyL "buffer" (List.replicate 64 0xAA#8) 0 key keyLen
    memsetL "buffer" buffer keyLen 0#8 (64 - keyLen)
  else do
    branch false
    let buffer ← sha2_256 host key keyLen "buffer" (List.replicate 64 0xAA#8)
    memsetL "buffer" buffer 32 0#8 32

/-- `fingera_hmac_sha256`, sha2.c 760-803. -/
def hmac_sha256 (host : Host) (key : Ptr) (keyLen : Nat) (msg : Ptr) (msgLen : Nat)
    (dst : String) (hmac : List Byte) : Leak (List Byte) := do
  let buffer ← hmacBuffer256 host key keyLen
  let (keyInner, keyOutter) ← xorKeys host buffer 0 8 (List.replicate 64 0xAA#8) (List.replicate 64 0xAA#8)
  let inner ← sha256Transform host "digest_inner" iv256 ⟨"key_inner", 0, keyInner⟩
  let inner ← sha256Final host "digest_inner" inner msg msgLen 64
  let innerBytes ← swapInner (fun x => bytes32 host (htobe32 host x)) 4 inner 0 8
  let outter ← sha256Transform host "digest_outter" iv256 ⟨"key_outter", 0, keyOutter⟩
  let outter ← sha256Final host "digest_outter" outter ⟨"digest_inner", 0, innerBytes⟩ 32 64
  let hmac ← putBig32 host "digest_outter" dst [.branch true] [0, 1, 2, 3, 4, 5, 6, 7] hmac outter
  branch false
  cleanseL "digest_outter" 32
  cleanseL "digest_inner" 32
  pure hmac

/-- Filling of `buffer`, sha2.c 822-828. -/
def hmacBuffer512 (host : Host) (key : Ptr) (keyLen : Nat) : Leak (List Byte) :=
  if keyLen ≤ 128 then do
    branch true
    let buffer ← memcpyL "buffer" (List.replicate 128 0xAA#8) 0 key keyLen
    memsetL "buffer" buffer keyLen 0#8 (128 - keyLen)
  else do
    branch false
    let buffer ← sha2_512 host key keyLen "buffer" (List.replicate 128 0xAA#8)
    memsetL "buffer" buffer 64 0#8 64

/-- `fingera_hmac_sha512`, sha2.c 805-849. -/
def hmac_sha512 (host : Host) (key : Ptr) (keyLen : Nat) (msg : Ptr) (msgLen : Nat)
    (dst : String) (hmac : List Byte) : Leak (List Byte) := do
  let buffer ← hmacBuffer512 host key keyLen
  let (keyInner, keyOutter) ← xorKeys host buffer 0 16 (List.replicate 128 0xAA#8) (List.replicate 128 0xAA#8)
  let inner ← sha512Transform host "digest_inner" iv512 ⟨"key_inner", 0, keyInner⟩
  let inner ← sha512Final host "digest_inner" inner msg msgLen 128
  let innerBytes ← swapInner (fun x => bytes64 host (htobe64 host x)) 8 inner 0 8
  let outter ← sha512Transform host "digest_outter" iv512 ⟨"key_outter", 0, keyOutter⟩
  let outter ← sha512Final host "digest_outter" outter ⟨"digest_inner", 0, innerBytes⟩ 64 128
  let hmac ← putBig64 host "digest_outter" dst [.branch true] [0, 1, 2, 3, 4, 5, 6, 7] hmac outter
  branch false
  cleanseL "digest_outter" 64
  cleanseL "digest_inner" 64
  pure hmac
end

/-! ### `src/hash/sha1.c` -/
section
open Sha1

/-- The message argument of a round (see `Sha1.evalOp`). -/
def sha1Op (be : Nat → Leak U32) (W : List (Option U32)) : Op → Leak (U32 × List (Option U32))
  | .load i off => do
    let x ← be off
    pure (x, W.set i (some x))
  | .mix dst p q r s => do
    let wp ← seen [] (Sha2.readW W p)
    let wq ← seen [] (Sha2.readW W q)
    let wr ← seen [] (Sha2.readW W r)
    let ws ← seen [] (Sha2.readW W s)
    let x := left (wp ^^^ wq ^^^ wr ^^^ ws)
    match dst with
    | some i => pure (x, W.set i (some x))
    | none => pure (x, W)

/-- `ROUND`, sha1.c 16-18 (see `Sha1.execRound`). -/
def sha1Round (be : Nat → Leak U32) (r : Round) (R : List U32) (W : List (Option U32)) :
    Leak (List U32 × List (Option U32)) := do
  let (x, W) ← sha1Op be W r.op
  let v := fun j => R.getD (r.regs.getD j 0) 0#32
  let arg := fun j => R.getD (r.args.getD j 0) 0#32
  let e := v 4 + (rol (v 0) 5 + evalFn r.fn (arg 0) (arg 1) (arg 2) + BitVec.ofNat 32 r.k + x)
  let R := R.set (r.regs.getD 4 0) e
  let R := R.set (r.regs.getD 1 0) (rol (R.getD (r.regs.getD 1 0) 0#32) 30)
  pure (R, W)

/-- A sequence of rounds. -/
def sha1Exec (be : Nat → Leak U32) : List Round → List U32 → List (Option U32) →
    Leak (List U32 × List (Option U32))
  | [], R, W => pure (R, W)
  | r :: rs, R, W => do
    let (R, W) ← sha1Round be r R W
    sha1Exec be rs R W

/-- `sha1_transform`, sha1.c 23-118. -/
def sha1Transform (host : Host) (s : List U32) (chunk : Ptr) : Leak (List U32) := do
  let s ← takeState "digest" 4 5 s
  let (R, _) ← sha1Exec (be32 host chunk) prog s (List.replicate 16 none)
  addState "digest" 4 5 s R

/-- `fingera_sha1`, sha1.c 120-152. -/
def sha1 (host : Host) (msg : Ptr) (msgLen : Nat) (dst : String) (hash : List Byte) : Leak (List Byte) := do
  let chunkEnd := htobe64 host ((BitVec.ofNat 64 msgLen) <<< 3)
  let digest ← finish (sha1Transform host) 64 55 (bytes64 host chunkEnd) iv msg msgLen
  let hash ← putBig32 host "digest" dst [] [0, 1, 2, 3, 4] hash digest
  cleanseL "digest" 20
  cleanseL "last_chunk" 64
  pure hash
end

/-! ### `src/hash/ripemd160.c` -/
section
open Ripemd160

/-- `X_i = le32(chunk, i * 4)`, ripemd160.c 88-95. -/
def loadX (host : Host) (chunk : Ptr) (i0 : Nat) : Nat → Leak (List U32)
  | 0 => pure []
  | n+1 => do
    let x ← le32 host chunk (i0 * 4)
    let xs ← loadX host chunk (i0 + 1) n
    pure (x :: xs)

/-- The accesses to `s[0] … s[4]` of `ripemd160_transform`, ripemd160.c 85-86 and 277-283. -/
def ripemdState : List Ev :=
  (List.range 5).map (fun i => .load "digest" (4 * i) 4) ++
  (List.range 5).map (fun i => .load "digest" (4 * i) 4) ++
  [.load "digest" 4 4, .load "digest" 8 4, .store "digest" 4 4, .load "digest" 12 4, .store "digest" 8 4,
   .load "digest" 16 4, .store "digest" 12 4, .load "digest" 0 4, .store "digest" 16 4,
   .store "digest" 0 4]

/-- `ripemd160_transform`, ripemd160.c 84-284: after the loads of the chunk only variables and the array
`s` at fixed places are used. -/
def ripemdTransform (host : Host) (s : List U32) (chunk : Ptr) : Leak (List U32) := do
  let X ← loadX host chunk 0 16
  let L := Ripemd160.exec X progL s
  let R := Ripemd160.exec X progR s
  let l := fun i => L.getD i 0#32
  let r := fun i => R.getD i 0#32
  let ddd := r 3 + (l 2 + s.getD 1 0#32)
  let s := s.set 1 (s.getD 2 0#32 + l 3 + r 4)
  let s := s.set 2 (s.getD 3 0#32 + l 4 + r 0)
  let s := s.set 3 (s.getD 4 0#32 + l 0 + r 1)
  let s := s.set 4 (s.getD 0 0#32 + l 1 + r 2)
  let s := s.set 0 ddd
  seen ripemdState (.ok s)

/-- `out[i] = htole32(digest[i])`, ripemd160.c 310-314. -/
def putLittle32 (host : Host) (src dst : String) (is : List Nat) (mem : List Byte) (xs : List U32) :
    Leak (List Byte) :=
  storeWords (fun mem off x => store32 host mem off (htole32 host x)) 4 src dst [] xs is mem

/-- `fingera_ripemd160`, ripemd160.c 286-317. -/
def ripemd160 (host : Host) (msg : Ptr) (msgLen : Nat) (dst : String) (hash : List Byte) :
    Leak (List Byte) := do
  let chunkEnd := htole64 host ((BitVec.ofNat 64 msgLen) <<< 3)
  let digest ← finish (ripemdTransform host) 64 55 (bytes64 host chunkEnd) iv msg msgLen
  let hash ← putLittle32 host "digest" dst [0, 1, 2, 3, 4] hash digest
  cleanseL "digest" 20
  cleanseL "last_chunk" 64
  pure hash
end

/-! ### `src/btc/hash.c` -/

/-- `fingera_btc_hash160`, hash.c 8-12. -/
def hash160 (host : Host) (msg : Ptr) (msgLen : Nat) (dst : String) (hash : List Byte) :
    Leak (List Byte) := do
  let sha2_digest ← sha2_256 host msg msgLen "sha2_digest" (List.replicate 32 0xAA#8)
  ripemd160 host ⟨"sha2_digest", 0, sha2_digest⟩ 32 dst hash

/-- `fingera_btc_hash256`, hash.c 14-18. -/
def hash256 (host : Host) (msg : Ptr) (msgLen : Nat) (dst : String) (hash : List Byte) :
    Leak (List Byte) := do
  let sha2_digest ← sha2_256 host msg msgLen "sha2_digest" (List.replicate 32 0xAA#8)
  sha2_256 host ⟨"sha2_digest", 0, sha2_digest⟩ 32 dst hash

/-- The loop of `fingera_btc_hash256_d64`, hash.c 23-31, from round `i` on, `k` rounds to go. -/
def d64Loop (host : Host) (dst : String) (inp : Ptr) (i : Nat) : Nat → List Byte → Leak (List Byte)
  | 0, out => do
    branch false
    pure out
  | k+1, out => do
    branch true
    let o ← d64Transform host ⟨dst, 32 * i, out.drop (32 * i)⟩ (inp.add (64 * i))
    d64Loop host dst inp (i + 1) k (out.take (32 * i) ++ o)

/-- `fingera_btc_hash256_d64`, hash.c 23-31. -/
def hash256_d64 (host : Host) (dst : String) (out : List Byte) (inp : Ptr) (blocks : Nat) :
    Leak (List Byte) := d64Loop host dst inp 0 blocks out

/-- `fingera_btc_bip32_hash`, hash.c 42-53 (the local `buffer` is called `hmac_msg` here). -/
def bip32_hash (host : Host) (chainCode : Ptr) (child : U32) (header : Byte)
    (data32 : Ptr) (dst : String) (out64 : List Byte) : Leak (List Byte) := do
  let buffer := List.replicate 37 0xAA#8
  let buffer ← memcpyL "hmac_msg" buffer 0 ⟨"header", 0, [header]⟩ 1
  let buffer ← memcpyL "hmac_msg" buffer 1 data32 32
  let buffer ← seen [.store "hmac_msg" 33 4] (writeBig32 host buffer 33 child)
  let out64 ← hmac_sha512 host chainCode 32 ⟨"hmac_msg", 0, buffer⟩ 37 dst out64
  cleanseL "hmac_msg" 37
  pure out64

end Leakage
