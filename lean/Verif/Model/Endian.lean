import Verif.Model.Basic

/-!
`include/fingera_libc/endian.h`.  The byte order of the host is a parameter: every function below is
given a `Host`, so that a theorem about them holds for little- and big-endian machines.
-/

/-- Byte order of the machine the C code runs on (`__BYTE_ORDER`). -/
inductive Host where
  | little
  | big
deriving DecidableEq, Repr

namespace Endian

/-- Value of a `uint32_t` object whose bytes in memory are `b0 b1 b2 b3` (ascending addresses). -/
def native32 (h : Host) (b0 b1 b2 b3 : Byte) : U32 :=
  match h with
  | .little => b3 ++ b2 ++ b1 ++ b0
  | .big => b0 ++ b1 ++ b2 ++ b3

/-- Bytes in memory (ascending addresses) of a `uint32_t` object holding `v`. -/
def bytes32 (h : Host) (v : U32) : List Byte :=
  match h with
  | .little => [v.extractLsb' 0 8, v.extractLsb' 8 8, v.extractLsb' 16 8, v.extractLsb' 24 8]
  | .big => [v.extractLsb' 24 8, v.extractLsb' 16 8, v.extractLsb' 8 8, v.extractLsb' 0 8]

/-- Value of a `uint64_t` object whose bytes in memory are `b0 … b7`. -/
def native64 (h : Host) (b0 b1 b2 b3 b4 b5 b6 b7 : Byte) : U64 :=
  match h with
  | .little => b7 ++ b6 ++ b5 ++ b4 ++ b3 ++ b2 ++ b1 ++ b0
  | .big => b0 ++ b1 ++ b2 ++ b3 ++ b4 ++ b5 ++ b6 ++ b7

/-- Bytes in memory of a `uint64_t` object holding `v`. -/
def bytes64 (h : Host) (v : U64) : List Byte :=
  match h with
  | .little => [v.extractLsb' 0 8, v.extractLsb' 8 8, v.extractLsb' 16 8, v.extractLsb' 24 8,
      v.extractLsb' 32 8, v.extractLsb' 40 8, v.extractLsb' 48 8, v.extractLsb' 56 8]
  | .big => [v.extractLsb' 56 8, v.extractLsb' 48 8, v.extractLsb' 40 8, v.extractLsb' 32 8,
      v.extractLsb' 24 8, v.extractLsb' 16 8, v.extractLsb' 8 8, v.extractLsb' 0 8]

/-- `bswap_32` of glibc `<byteswap.h>` / `_byteswap_ulong` / `OSSwapInt32`. -/
def bswap32 (x : U32) : U32 :=
  x.extractLsb' 0 8 ++ x.extractLsb' 8 8 ++ x.extractLsb' 16 8 ++ x.extractLsb' 24 8

/-- `bswap_64`. -/
def bswap64 (x : U64) : U64 :=
  x.extractLsb' 0 8 ++ x.extractLsb' 8 8 ++ x.extractLsb' 16 8 ++ x.extractLsb' 24 8 ++
  x.extractLsb' 32 8 ++ x.extractLsb' 40 8 ++ x.extractLsb' 48 8 ++ x.extractLsb' 56 8

/-- `htobe32`, endian.h 67 and 85 for Windows, the platform header elsewhere. -/
def htobe32 (h : Host) (x : U32) : U32 := match h with | .little => bswap32 x | .big => x
/-- `htole32`, endian.h 68, 86 / platform header. -/
def htole32 (h : Host) (x : U32) : U32 := match h with | .little => x | .big => bswap32 x
/-- `htobe64`, endian.h 72, 90 / platform header. -/
def htobe64 (h : Host) (x : U64) : U64 := match h with | .little => bswap64 x | .big => x
/-- `htole64`, endian.h 73, 91 / platform header. -/
def htole64 (h : Host) (x : U64) : U64 := match h with | .little => x | .big => bswap64 x

/-- `memcpy(&value, buf, 4)` into a `uint32_t`. -/
def load32 (h : Host) (mem : List Byte) (off : Nat) : Res U32 := do
  let b0 ← rd mem off
  let b1 ← rd mem (off+1)
  let b2 ← rd mem (off+2)
  let b3 ← rd mem (off+3)
  pure (native32 h b0 b1 b2 b3)

/-- `memcpy(&value, buf, 8)` into a `uint64_t`. -/
def load64 (h : Host) (mem : List Byte) (off : Nat) : Res U64 := do
  let b0 ← rd mem off
  let b1 ← rd mem (off+1)
  let b2 ← rd mem (off+2)
  let b3 ← rd mem (off+3)
  let b4 ← rd mem (off+4)
  let b5 ← rd mem (off+5)
  let b6 ← rd mem (off+6)
  let b7 ← rd mem (off+7)
  pure (native64 h b0 b1 b2 b3 b4 b5 b6 b7)

/-- `memcpy(buf, &value, 4)`, or a store through a `uint32_t *`. -/
def store32 (h : Host) (mem : List Byte) (off : Nat) (v : U32) : Res (List Byte) :=
  memcpy mem off (bytes32 h v) 4

/-- A store of a `uint64_t` object. -/
def store64 (h : Host) (mem : List Byte) (off : Nat) (v : U64) : Res (List Byte) :=
  memcpy mem off (bytes64 h v) 8

/-- `read_little_32`, endian.h 116-120 (and `le32`, 147-149: the same at `mem + offset`). -/
def readLittle32 (h : Host) (mem : List Byte) (off : Nat) : Res U32 := do
  let value ← load32 h mem off
  pure (htole32 h value)
/-- `read_little_64`, endian.h 121-125 (and `le64`, 150-152). -/
def readLittle64 (h : Host) (mem : List Byte) (off : Nat) : Res U64 := do
  let value ← load64 h mem off
  pure (htole64 h value)
/-- `read_big_32`, endian.h 126-130 (and `be32`, 153-155). -/
def readBig32 (h : Host) (mem : List Byte) (off : Nat) : Res U32 := do
  let value ← load32 h mem off
  pure (htobe32 h value)
/-- `read_big_64`, endian.h 131-135 (and `be64`, 156-158). -/
def readBig64 (h : Host) (mem : List Byte) (off : Nat) : Res U64 := do
  let value ← load64 h mem off
  pure (htobe64 h value)
/-- `write_little_32`, endian.h 137-140. -/
def writeLittle32 (h : Host) (mem : List Byte) (off : Nat) (v : U32) : Res (List Byte) :=
  store32 h mem off (htole32 h v)
/-- `write_big_32`, endian.h 142-145. -/
def writeBig32 (h : Host) (mem : List Byte) (off : Nat) (v : U32) : Res (List Byte) :=
  store32 h mem off (htobe32 h v)

end Endian
