import Verif.Model.Base58
import Verif.Model.BtcHash

/-! `src/btc/base58_check.c` and `include/fingera_libc/btc/base58_check.h`.  As in `Verif.Model.Base58`
the temporary of `DECLARE_BUFFER` is an object of exactly the requested size, and its wiping before
release is left out (see `Verif.Model.Temporaries`). -/
namespace Base58Check

/-- `fingera_to_base58_check_length`, base58_check.h 25-29. -/
def toBase58CheckLength (bufSize prefixSize : Nat) : Nat :=
  Base58.toBase58Length (bufSize + 4 + prefixSize)

/-- `fingera_from_base58_check_length`, base58_check.h 38-41. -/
def fromBase58CheckLength (strLen : Nat) : Nat := Base58.fromBase58Length strLen

/-- `fingera_to_base58_check`, base58_check.c 10-31. -/
def toBase58Check (host : Host) (buf : List Byte) (bufSize : Nat) (pre : List Byte) (prefixSize : Nat)
    (str : List Byte) : Res (List Byte × Nat) := do
  let hash := List.replicate 32 0xAA#8
  let sizeOfData := bufSize + prefixSize
  let sizeOfAll := sizeOfData + 4
  let buffer := List.replicate sizeOfAll 0xAA#8
  let buffer ← memcpy buffer 0 pre prefixSize
  let buffer ← memcpy buffer prefixSize buf bufSize
  let hash ← BtcHash.hash256 host buffer sizeOfData hash
  let buffer ← memcpy buffer sizeOfData hash 4
  Base58.toBase58 buffer sizeOfAll str

/-- `fingera_from_base58_check`, base58_check.c 33-40. Returns the memory at `buf` and the return
value. -/
def fromBase58Check (host : Host) (cs : Bool) (str : List Byte) (strLen : Nat) (buf : List Byte) :
    Res (List Byte × Nat) := do
  let hash := List.replicate 32 0xAA#8
  let (buf, bufSize) ← Base58.fromBase58 cs str strLen buf
  if bufSize < 4 then pure (buf, 0)
  else
    let hash ← BtcHash.hash256 host buf (bufSize - 4) hash
    let same ← memeq hash (buf.drop (bufSize - 4)) 4
    if same then pure (buf, bufSize - 4) else pure (buf, 0)

end Base58Check
