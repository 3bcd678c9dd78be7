import Verif.Model.Random
/-!
`src/random.c` once more, all three implementations, with the calls made to the operating system; and `src/cleanse.c` as
compiled by MSVC.
-/
namespace Random

/-- Calls to the system that return, in order; `h` is a file descriptor or a provider handle. -/
inductive Call where
  | opened (h : Nat)
  | read (h : Nat) (got : Nat)
  /-- The system's generator was asked for `n` bytes. -/
  | generate (h : Nat) (n : Nat)
  | closed (h : Nat)
deriving DecidableEq, Repr

/-- The loop of src/random.c:59-65 with its calls; see `readLoop`. -/
def readLoopCalls (fd : Nat) (buf : List Byte) (size : Nat) (log : List Call) :
    List Reply → Res (Option (List Byte × List Reply × List Call))
  | replies =>
    if size = 0 then .ok (some (buf, replies, log))
    else match replies with
    | [] => .ok none
    | .error :: _ => .abort
    | .bytes bs :: replies =>
      let r := min bs.length size
      if r = 0 then .abort
      else do
        let buf ← memcpy buf 0 bs r
        readLoopCalls fd buf (size - r) (log ++ [.read fd r]) replies

/-- `fingera_os_rand_bytes` on Unix, src/random.c:54-67: memory, replies left, calls made.  `fd` is what `open` returns. -/
def osRandBytesCalls (os : Os) (fd : Nat) (buf : List Byte) (size : Nat) :
    Res (Option (List Byte × List Reply × List Call)) :=
  if !os.opens then .abort
  else do
    match ← readLoopCalls fd buf size [.opened fd] os.replies with
    | none => pure none
    | some (buf, replies, log) => pure (some (buf, replies, log ++ [.closed fd]))

/-- What Windows will do. -/
structure Win where
  /-- Handle, `none`: `BCryptOpenAlgorithmProvider` / `CryptAcquireContextW` fails. -/
  provider : Option Nat
  /-- The generator's reply to a request: `none` is an error; otherwise as many bytes as asked for. -/
  generator : Nat → Option (List Byte)

/-- The generator delivers exactly what it is asked for, or fails. -/
def Win.Exact (w : Win) : Prop := ∀ n bs, w.generator n = some bs → bs.length = n

/-- `fingera_os_rand_bytes` with `BCryptGenRandom` (Windows Vista and later), src/random.c:16-28.  The third parameter of
`BCryptGenRandom` has type `ULONG` (32 bits): `buf_size` is converted implicitly. -/
def bcryptRandBytes (w : Win) (buf : List Byte) (size : Nat) : Res (List Byte × List Call) :=
  match w.provider with
  | none => .abort
  | some h =>
    let cb := size % 2 ^ 32
    match w.generator cb with
    | none => .abort
    | some bs => do
      let buf ← memcpy buf 0 bs cb
      pure (buf, [.opened h, .generate h cb, .closed h])

/-- `fingera_os_rand_bytes` with `CryptGenRandom` (before Vista), src/random.c:35-45: `(DWORD)buf_size`. -/
def cryptRandBytes (w : Win) (buf : List Byte) (size : Nat) : Res (List Byte × List Call) :=
  match w.provider with
  | none => .abort
  | some h =>
    let dwLen := size % 2 ^ 32
    match w.generator dwLen with
    | none => .abort
    | some bs => do
      let buf ← memcpy buf 0 bs dwLen
      pure (buf, [.opened h, .generate h dwLen, .closed h])

/-- `fingera_cleanse`, src/cleanse.c:8-15, `_MSC_VER`: `SecureZeroMemory` after the `memset`. -/
def cleanseMsvc (mem : List Byte) (size : Nat) : Res (List Byte) := do
  let mem ← memset mem 0 0xCC#8 size
  memset mem 0 0#8 size

end Random
