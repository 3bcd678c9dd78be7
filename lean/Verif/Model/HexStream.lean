import Verif.Model.Hex
/-!
`fingera_hex_dump` (`src/hex.c:61-94`) once more, now with the stream it writes to: which calls of `fwrite` it makes, and a stream that
may take only part of what it is given (a full disk, a closed pipe).  `Hex.hexDump` is the same function on a stream that takes
everything.
-/
namespace HexStream

/-- One call of `fwrite(str_cache, str_cache_len, 1, stdout)`: the characters handed over and how many of them the stream took. -/
structure Call where
  data : List Byte
  took : Nat
deriving DecidableEq, Repr

/-- What reaches the other end. -/
def Call.arrived (c : Call) : List Byte := c.data.take c.took

/-- The return value of `fwrite` is 1 and the error indicator stays clear: the one item was written completely. -/
def Call.complete (c : Call) : Bool := c.took = c.data.length

/-- `str_cache`, `str_cache_len` (hex.c:66-67) and the calls made so far, in order. -/
structure State where
  cache : List Byte
  len : Nat
  calls : List Call

/-- Macro `WRITE_CACHE__`, src/hex.c:68. -/
def State.put (d : State) (c : Byte) : Res State := do
  let cache ← wr d.cache d.len c
  pure { d with cache := cache, len := d.len + 1 }

/-- `if (cond) WRITE_CACHE__(c);`. -/
def State.putIf (d : State) (cond : Bool) (c : Byte) : Res State :=
  if cond then d.put c else pure d

/-- `fwrite(str_cache, str_cache_len, 1, stdout)`, src/hex.c:84 and 92; the result is not looked at.  `room k` is the number of
characters the stream would take in the call number `k`. -/
def State.fwrite (room : Nat → Nat) (d : State) : Res State :=
  if d.len ≤ d.cache.length then
    pure { d with calls := d.calls ++ [⟨d.cache.take d.len, min (room d.calls.length) d.len⟩] }
  else .ub

/-- Loop body of `fingera_hex_dump`, src/hex.c:70-87. -/
def body (room : Nat → Nat) (buf : List Byte) (upper : Bool) (i : Nat) (d : State) : Res State := do
  let byte ← rd buf i
  let d ← d.putIf (i ≠ 0 && i % 4 = 0) (chr ' ')
  let d ← d.putIf (i ≠ 0 && i % 8 = 0) (chr ' ')
  let d ← d.putIf (i ≠ 0 && i % 16 = 0) (chr ' ')
  let d ← d.putIf (i ≠ 0 && i % 32 = 0) (chr '\n')
  let d ← d.put (← rd (Hex.hexStr upper) (byte >>> 4).toNat)
  let d ← d.put (← rd (Hex.hexStr upper) (byte &&& 0xF).toNat)
  if d.len > 1000 then do
    let d ← d.fwrite room
    pure { d with len := 0 }
  else pure d

/-- `fingera_hex_dump`, src/hex.c:61-94.  `cache0` is the (uninitialised) content of `str_cache`, 1024 bytes.  Returns the calls of
`fwrite` made, in order. -/
def hexDump (room : Nat → Nat) (cache0 : List Byte) (buf : List Byte) (bufSize : Nat) (upper : Bool) : Res (List Call) := do
  let d ← forLoop (body room buf upper) 0 bufSize { cache := cache0, len := 0, calls := [] }
  let d ← d.put (chr '\n')
  let d ← if d.len > 0 then d.fwrite room else pure d
  pure d.calls

end HexStream
