import Verif.Model.Overlap
/-! `fingera_btc_hash256_d64` on one object, and its use for Merkle trees. -/
namespace Overlap

/-- `fingera_btc_hash256_d64(obj + b, obj + a, blocks)`, src/btc/hash.c:23-31.  `_hash256_d64_transform` performs all its reads of `in`
before its first write to `out` (sha2.c 54-69 and 370-377). -/
def hash256_d64 (host : Host) (mem : List Byte) (a b blocks : Nat) : Res (List Byte) :=
  forLoop (fun i mem => at_ (b + 32 * i) (fun o => Sha2.d64Transform host o (mem.drop (a + 64 * i))) mem) 0 blocks mem

end Overlap

namespace Merkle

/-- Repeat the last of `n` hashes if their number is odd. -/
def doubleLast (mem : List Byte) (n : Nat) : Res (List Byte) :=
  if n % 2 = 1 then memcpy mem (32 * n) (mem.drop (32 * (n - 1))) 32 else pure mem

/-- A caller of `fingera_btc_hash256_d64` (include/fingera_libc/btc/hash.h:41-49) that computes a Merkle root, as Bitcoin Core's
`ComputeMerkleRoot` does: while there is more than one hash, double the last one if their number is odd, and replace the hashes by
those of the pairs, in place.  Not part of the library. -/
def merkle (host : Host) (mem : List Byte) (n : Nat) : Res (List Byte) :=
  if h : n ≤ 1 then .ok mem
  else do
    let mem ← doubleLast mem n
    let mem ← Overlap.hash256_d64 host mem 0 0 ((n + 1) / 2)
    merkle host mem ((n + 1) / 2)
termination_by n
decreasing_by omega

end Merkle
