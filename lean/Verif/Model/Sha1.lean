import Verif.Model.HashCommon
import Verif.Model.Sha1Prog
import Verif.Model.Sha2

/-! `src/hash/sha1.c`. -/
namespace Sha1
open Endian HashCommon

/-- `ROL`, sha1.c 10. -/
def rol (x : U32) (n : Nat) : U32 := (x <<< n) ||| (x >>> (32 - n))

/-- `F1`, `F2`, `F3`, sha1.c 12-14 (the round macro puts parentheses around the result). -/
def evalFn : Fn → U32 → U32 → U32 → U32
  | .F1, b, c, d => d ^^^ (b &&& (c ^^^ d))
  | .F2, b, c, d => b ^^^ c ^^^ d
  | .F3, b, c, d => (b &&& c) ||| (d &&& (b ||| c))

/-- `left`, sha1.c 21. -/
def left (x : U32) : U32 := rol x 1

/-- The message argument of a round: its value and the new `w_i`. -/
def evalOp (be : Nat → Res U32) (W : List (Option U32)) : Op → Res (U32 × List (Option U32))
  | .load i off => do
    let x ← be off
    pure (x, W.set i (some x))
  | .mix dst p q r s => do
    let wp ← Sha2.readW W p
    let wq ← Sha2.readW W q
    let wr ← Sha2.readW W r
    let ws ← Sha2.readW W s
    let x := left (wp ^^^ wq ^^^ wr ^^^ ws)
    match dst with
    | some i => pure (x, W.set i (some x))
    | none => pure (x, W)

/-- `ROUND`, sha1.c 16-18: `e += ROL(a, 5) + f + k + w; b = ROL(b, 30);`. -/
def execRound (be : Nat → Res U32) (r : Round) (R : List U32) (W : List (Option U32)) :
    Res (List U32 × List (Option U32)) := do
  let (x, W) ← evalOp be W r.op
  let v := fun j => R.getD (r.regs.getD j 0) 0#32
  let arg := fun j => R.getD (r.args.getD j 0) 0#32
  let e := v 4 + (rol (v 0) 5 + evalFn r.fn (arg 0) (arg 1) (arg 2) + BitVec.ofNat 32 r.k + x)
  let R := R.set (r.regs.getD 4 0) e
  let R := R.set (r.regs.getD 1 0) (rol (R.getD (r.regs.getD 1 0) 0#32) 30)
  pure (R, W)

/-- A sequence of rounds. -/
def exec (be : Nat → Res U32) : List Round → List U32 → List (Option U32) →
    Res (List U32 × List (Option U32))
  | [], R, W => .ok (R, W)
  | r :: rs, R, W => do
    let (R, W) ← execRound be r R W
    exec be rs R W

/-- `sha1_transform`, sha1.c 23-118.  `s` is an array of five words; returns its new contents. -/
def transform (host : Host) (s : List U32) (chunk : List Byte) : Res (List U32) := do
  let (R, _) ← exec (readBig32 host chunk) prog s (List.replicate 16 none)
  pure (List.zipWith (· + ·) s R)

/-- Initial digest, sha1.c 122-123. -/
def iv : List U32 := [0x67452301, 0xEFCDAB89, 0x98BADCFE, 0x10325476, 0xC3D2E1F0]

/-- `fingera_sha1`, sha1.c 120-152.  Returns the memory at `hash`.  (The cleansing of the locals at
the end has no observable effect and is left out.) -/
def sha1 (host : Host) (msg : List Byte) (msgLen : Nat) (hash : List Byte) : Res (List Byte) := do
  let chunkEnd := htobe64 host ((BitVec.ofNat 64 msgLen) <<< 3)
  let digest ← finish (transform host) 64 55 (bytes64 host chunkEnd) iv msg msgLen
  Sha2.storeBig32 host hash 0 digest

end Sha1
