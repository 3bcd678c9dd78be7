import Verif.Model.Sha2
import Verif.Model.Ripemd160

/-! `src/btc/hash.c`. -/
namespace BtcHash
open Endian

/-- `fingera_btc_hash160`, hash.c 8-12. -/
def hash160 (host : Host) (msg : List Byte) (msgLen : Nat) (hash : List Byte) : Res (List Byte) := do
  let sha2_digest := List.replicate 32 0xAA#8
  let sha2_digest ← Sha2.sha2_256 host msg msgLen sha2_digest
  Ripemd160.ripemd160 host sha2_digest 32 hash

/-- `fingera_btc_hash256`, hash.c 14-18. -/
def hash256 (host : Host) (msg : List Byte) (msgLen : Nat) (hash : List Byte) : Res (List Byte) := do
  let sha2_digest := List.replicate 32 0xAA#8
  let sha2_digest ← Sha2.sha2_256 host msg msgLen sha2_digest
  Sha2.sha2_256 host sha2_digest 32 hash

/-- `fingera_btc_hash256_d64`, hash.c 23-31, for an output object that does not overlap the input.
Iteration `i`: `_out = out + 32 i`, `_in = in + 64 i`. -/
def hash256_d64 (host : Host) (out inp : List Byte) (blocks : Nat) : Res (List Byte) :=
  forLoop (fun i out => do
    let o ← Sha2.d64Transform host (out.drop (32 * i)) (inp.drop (64 * i))
    pure (out.take (32 * i) ++ o)) 0 blocks out

/-- `fingera_btc_hash256_d64`, hash.c 23-31, with `out == in` (Merkle trees are computed in place).
`_hash256_d64_transform` performs all its reads of `in` before its first write to `out`
(sha2.c 54-69 and 370-377), so one iteration reads from and then writes to the same object. -/
def hash256_d64InPlace (host : Host) (mem : List Byte) (blocks : Nat) : Res (List Byte) :=
  forLoop (fun i mem => do
    let o ← Sha2.d64Transform host (mem.drop (32 * i)) (mem.drop (64 * i))
    pure (mem.take (32 * i) ++ o)) 0 blocks mem

/-- `fingera_btc_bip32_hash`, hash.c 42-53. -/
def bip32_hash (host : Host) (chainCode : List Byte) (child : U32) (header : Byte)
    (data32 : List Byte) (out64 : List Byte) : Res (List Byte) := do
  let buffer := List.replicate 37 0xAA#8
  let buffer ← memcpy buffer 0 [header] 1
  let buffer ← memcpy buffer 1 data32 32
  let buffer ← writeBig32 host buffer 33 child
  Sha2.hmac_sha512 host chainCode 32 buffer 37 out64

end BtcHash
