import Verif.Model.Basic
/-!
Model of `src/random.c` (the Unix implementation, lines 51-67) and `src/cleanse.c`.

The operating system is a parameter: whether `open` succeeds, and the replies to the successive calls of `read`.
The two Windows implementations (random.c:4-45) call the system once for the whole buffer and are in `Model/RandomOs`.
-/
namespace Random

/-- One reply of `read(fd, buf, n)`: an error (return value −1), or a number of bytes, of which the kernel stores the first
`n`.  No bytes: return value 0 (end of file). -/
inductive Reply where
  | error
  | bytes (bs : List Byte)
deriving DecidableEq, Repr

/-- What the operating system will do. -/
structure Os where
  /-- `open("/dev/urandom", O_RDONLY)` succeeds. -/
  opens : Bool
  /-- Replies to the calls of `read`, in order. -/
  replies : List Reply
deriving DecidableEq, Repr

/-- `while (buf_size != 0) { … }`, src/random.c:59-65: the memory at `buf` and the replies left, `none` if the next `read` does
not return.  `buf` is not advanced in the loop.  A `FINGERA_FATAL` is `abort` (src/error.c:15-47 ends in `exit(-1)`).
`int r` is modelled as a number: Linux never returns more than 0x7ffff000. -/
def readLoop (buf : List Byte) (size : Nat) : List Reply → Res (Option (List Byte × List Reply))
  | replies =>
    if size = 0 then .ok (some (buf, replies))
    else match replies with
    | [] => .ok none
    | .error :: _ => .abort
    | .bytes bs :: replies =>
      let r := min bs.length size
      if r = 0 then .abort
      else do
        let buf ← memcpy buf 0 bs r
        readLoop buf (size - r) replies

/-- `fingera_os_rand_bytes`, src/random.c:54-67. -/
def osRandBytes (os : Os) (buf : List Byte) (size : Nat) : Res (Option (List Byte × List Reply)) :=
  if !os.opens then .abort else readLoop buf size os.replies

/-- `fingera_cleanse`, src/cleanse.c:8-15 (not `_MSC_VER`).  The empty assembler statement keeps the compiler from dropping the
`memset`; it has no effect on memory. -/
def cleanse (mem : List Byte) (size : Nat) : Res (List Byte) := memset mem 0 0xCC#8 size

end Random
