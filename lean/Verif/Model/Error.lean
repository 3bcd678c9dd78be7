import Verif.Model.RandomOs
/-!
Model of `src/error.c`, and `src/random.c` once more with what a failure prints and how it ends.

`stderr` is the list of bytes written to it; errors while writing to it are not modelled.  `strerror` and `FormatMessageA` are arbitrary
functions, `errno` and `GetLastError()` arbitrary values.
-/
namespace Error

/-- An argument of `...`, with the type it has in C. -/
inductive Arg where
  | int (v : Int)
  | long (v : Int)
  | uint (v : Nat)
  | ulong (v : Nat)
  /-- a string, without its NUL -/
  | str (s : List Byte)
deriving DecidableEq, Repr

/-- The conversions that occur in format strings of the library: `%d`, `%ld`, `%lu`, `%08lx`, `%s`. -/
inductive Conv where
  | d | ld | lu | x08l | s
deriving DecidableEq, Repr

inductive Piece where
  | lit (c : Byte)
  | conv (c : Conv)
  /-- anything else behind a `%` -/
  | other
deriving DecidableEq, Repr

/-- The characters behind `%` so far, as a complete conversion. -/
def conversion? (p : List Byte) : Option Conv :=
  if p = cstr "d" then some .d
  else if p = cstr "ld" then some .ld
  else if p = cstr "lu" then some .lu
  else if p = cstr "08lx" then some .x08l
  else if p = cstr "s" then some .s
  else none

/-- A format string, cut into characters and conversions; `pending` are the characters since an unfinished `%`. -/
def parse : List Byte → Option (List Byte) → List Piece
  | [], none => []
  | [], some _ => [.other]
  | c :: fs, none => if c = chr '%' then parse fs (some []) else .lit c :: parse fs none
  | c :: fs, some p =>
    match conversion? (p ++ [c]) with
    | some v => .conv v :: parse fs none
    | none => if p.length < 3 then parse fs (some (p ++ [c])) else [.other]

/-- Decimal digits of a number. -/
def decimal (n : Nat) : List Byte := (Nat.toDigits 10 n).map chr

/-- With sign. -/
def signed (v : Int) : List Byte := if v < 0 then chr '-' :: decimal v.natAbs else decimal v.natAbs

/-- Hexadecimal digits, zeros in front up to eight places. -/
def hex08 (n : Nat) : List Byte :=
  let ds := (Nat.toDigits 16 n).map chr
  List.replicate (8 - ds.length) (chr '0') ++ ds

/-- One conversion.  An argument of another type than the conversion expects is undefined (C11 7.21.6.1p9). -/
def convert : Conv → Arg → Res (List Byte)
  | .d, .int v => .ok (signed v)
  | .ld, .long v => .ok (signed v)
  | .lu, .ulong v => .ok (decimal v)
  | .x08l, .ulong v => .ok (hex08 v)
  | .s, .str t => .ok t
  | _, _ => .ub

/-- The pieces of a format with their arguments.  Too few arguments are undefined, surplus ones are ignored. -/
def fill : List Piece → List Arg → Res (List Byte)
  | [], _ => .ok []
  | .lit c :: ps, as => do
    let r ← fill ps as
    pure (c :: r)
  | .conv v :: ps, a :: as => do
    let t ← convert v a
    let r ← fill ps as
    pure (t ++ r)
  | .conv _ :: _, [] => .ub
  | .other :: _, _ => .ub

/-- `fprintf(stderr, format, …)` / `vfprintf`: what is written. -/
def printf (format : List Byte) (args : List Arg) : Res (List Byte) := fill (parse format none) args

/-- The end of a process: what `fingera_fatal` wrote to `stderr`, and the argument of `exit`. -/
structure Exit where
  err : List Byte
  status : Int
deriving DecidableEq, Repr

/-- What the system knows about the last failure. -/
structure Sys where
  /-- `errno` when `fingera_fatal` is entered -/
  errno : Int
  strerror : Int → List Byte

/-- The line about `errno`, src/error.c:30-32. -/
def errnoText (sys : Sys) : Res (List Byte) :=
  if sys.errno ≠ 0 then printf (cstr "\t%s(%d)\n") [.str (sys.strerror sys.errno), .int sys.errno] else .ok []

/-- `fingera_fatal`, src/error.c:15-47, not `WIN32`. -/
def fatal (sys : Sys) (func file : List Byte) (line : Int) (msg : List Byte) (args : List Arg) : Res Exit := do
  let a ← printf (cstr "FATAL ") []
  let b ← printf msg args
  let c ← printf (cstr " (%s)(%s:%ld)\n") [.str func, .str file, .long line]
  let d ← errnoText sys
  pure ⟨a ++ b ++ c ++ d, -1⟩

/-- The same on Windows. -/
structure WinSys extends Sys where
  /-- `GetLastError()` when `fingera_fatal` is entered -/
  lastError : Nat
  /-- `FormatMessageA`: the text, `none` if it fails (it then leaves `msg_buffer` alone) -/
  formatMessage : Nat → Option (List Byte)

/-- The line about `GetLastError()`, src/error.c:34-42.  `msg_buffer` is not initialised: if `FormatMessageA` fails an indeterminate
pointer is printed and freed. -/
def lastErrorText (sys : WinSys) : Res (List Byte) :=
  if sys.lastError ≠ 0 then
    match sys.formatMessage sys.lastError with
    | none => .ub
    | some t => printf (cstr "\t%s ErrorCode(%08lx)\n") [.str t, .ulong sys.lastError]
  else .ok []

/-- `fingera_fatal`, src/error.c:15-47, `WIN32`. -/
def fatalWin (sys : WinSys) (func file : List Byte) (line : Int) (msg : List Byte) (args : List Arg) : Res Exit := do
  let a ← printf (cstr "FATAL ") []
  let b ← printf msg args
  let c ← printf (cstr " (%s)(%s:%ld)\n") [.str func, .str file, .long line]
  let d ← errnoText sys.toSys
  let e ← lastErrorText sys
  pure ⟨a ++ b ++ c ++ d ++ e, -1⟩

/-- How a call ends. -/
inductive Outcome (α : Type) where
  | returned (a : α)
  | exited (e : Exit)
deriving DecidableEq, Repr

/-- `__func__` in src/random.c. -/
def func : List Byte := cstr "fingera_os_rand_bytes"

open Random

/-- The loop of src/random.c:59-65 with the report of line 62; see `Random.readLoop`. -/
def readLoop (sys : Sys) (file : List Byte) (buf : List Byte) (size : Nat) :
    List Reply → Res (Option (Outcome (List Byte × List Reply)))
  | replies =>
    if size = 0 then .ok (some (.returned (buf, replies)))
    else match replies with
    | [] => .ok none
    | .error :: _ => do
      let e ← fatal sys func file 62 (cstr "read /dev/urandom %d") [.int (-1)]
      pure (some (.exited e))
    | .bytes bs :: replies =>
      let r := min bs.length size
      if r = 0 then do
        let e ← fatal sys func file 62 (cstr "read /dev/urandom %d") [.int 0]
        pure (some (.exited e))
      else do
        let buf ← memcpy buf 0 bs r
        readLoop sys file buf (size - r) replies

/-- `fingera_os_rand_bytes`, src/random.c:54-67, Unix; `file` is `__FILE__`. -/
def osRandBytes (sys : Sys) (file : List Byte) (os : Os) (buf : List Byte) (size : Nat) :
    Res (Option (Outcome (List Byte × List Reply))) :=
  if !os.opens then do
    let e ← fatal sys func file 57 (cstr "open /dev/urandom") []
    pure (some (.exited e))
  else readLoop sys file buf size os.replies

/-- `fingera_os_rand_bytes` with `BCryptGenRandom`, src/random.c:16-28; `status` is the `NTSTATUS` of a failing call.  Lines 21 and 25
pass an `unsigned int` where `%lu` expects an `unsigned long`. -/
def bcryptRandBytes (sys : WinSys) (file : List Byte) (status : Nat) (w : Win) (buf : List Byte) (size : Nat) :
    Res (Outcome (List Byte × List Random.Call)) :=
  match w.provider with
  | none => do
    let e ← fatalWin sys func file 21 (cstr "BCryptOpenAlgorithmProvider %lu") [.uint status]
    pure (.exited e)
  | some h =>
    let cb := size % 2 ^ 32
    match w.generator cb with
    | none => do
      let e ← fatalWin sys func file 25 (cstr "BCryptGenRandom %lu") [.uint status]
      pure (.exited e)
    | some bs => do
      let buf ← memcpy buf 0 bs cb
      pure (.returned (buf, [.opened h, .generate h cb, .closed h]))

/-- `fingera_os_rand_bytes` with `CryptGenRandom`, src/random.c:35-46. -/
def cryptRandBytes (sys : WinSys) (file : List Byte) (w : Win) (buf : List Byte) (size : Nat) :
    Res (Outcome (List Byte × List Random.Call)) :=
  match w.provider with
  | none => do
    let e ← fatalWin sys func file 39 (cstr "CryptAcquireContextW") []
    pure (.exited e)
  | some h =>
    let dwLen := size % 2 ^ 32
    match w.generator dwLen with
    | none => do
      let e ← fatalWin sys func file 42 (cstr "CryptGenRandom") []
      pure (.exited e)
    | some bs => do
      let buf ← memcpy buf 0 bs dwLen
      pure (.returned (buf, [.opened h, .generate h dwLen, .closed h]))

end Error
