import Verif.Model.Basic
/-! Model of `src/base58.c` and `include/fingera_libc/base58.h`.

`DECLARE_BUFFER` (include/fingera_libc/sl/buffer.h:14-25) is modelled as an object of exactly the
requested size (the stack variant is larger); `malloc` is assumed to succeed for sizes that fit an
`int`, and to fail for the huge sizes a negative `int` converts to (`memset` on NULL is then
undefined).  The wiping of the temporary before it is released (lines 67-68, 94-95, …) has no effect
on results and is left out here; wiping and freeing are modelled in `Verif.Model.Temporaries`, `fingera_cleanse`
itself in `Verif.Model.Random`. -/
namespace Base58

/-- `fingera_to_base58_length`, include/fingera_libc/base58.h:24-26. -/
def toBase58Length (bufSize : Nat) : Nat := bufSize * 138 / 100 + 2

/-- `fingera_from_base58_length`, include/fingera_libc/base58.h:35-37. -/
def fromBase58Length (strLen : Nat) : Nat := strLen * 733 / 1000 + 2

/-- src/base58.c:10-11 (59 bytes with the terminating NUL). -/
def BASE58_ENCODE : List Byte :=
  cstr "123456789ABCDEFGHJKLMNPQRSTUVWXYZabcdefghijkmnopqrstuvwxyz" ++ [0]

/-- `BASE58_DECODE`, src/base58.c:12-27 (256 entries, copied mechanically). -/
def BASE58_DECODE : List Int := [
  -1, -1, -1, -1, -1, -1, -1, -1, -1, -1, -1, -1, -1, -1, -1, -1, -1, -1, -1,
  -1, -1, -1, -1, -1, -1, -1, -1, -1, -1, -1, -1, -1, -1, -1, -1, -1, -1, -1,
  -1, -1, -1, -1, -1, -1, -1, -1, -1, -1, -1, 0, 1, 2, 3, 4, 5, 6, 7,
  8, -1, -1, -1, -1, -1, -1, -1, 9, 10, 11, 12, 13, 14, 15, 16, -1, 17, 18,
  19, 20, 21, -1, 22, 23, 24, 25, 26, 27, 28, 29, 30, 31, 32, -1, -1, -1, -1,
  -1, -1, 33, 34, 35, 36, 37, 38, 39, 40, 41, 42, 43, -1, 44, 45, 46, 47, 48,
  49, 50, 51, 52, 53, 54, 55, 56, 57, -1, -1, -1, -1, -1, -1, -1, -1, -1, -1,
  -1, -1, -1, -1, -1, -1, -1, -1, -1, -1, -1, -1, -1, -1, -1, -1, -1, -1, -1,
  -1, -1, -1, -1, -1, -1, -1, -1, -1, -1, -1, -1, -1, -1, -1, -1, -1, -1, -1,
  -1, -1, -1, -1, -1, -1, -1, -1, -1, -1, -1, -1, -1, -1, -1, -1, -1, -1, -1,
  -1, -1, -1, -1, -1, -1, -1, -1, -1, -1, -1, -1, -1, -1, -1, -1, -1, -1, -1,
  -1, -1, -1, -1, -1, -1, -1, -1, -1, -1, -1, -1, -1, -1, -1, -1, -1, -1, -1,
  -1, -1, -1, -1, -1, -1, -1, -1, -1, -1, -1, -1, -1, -1, -1, -1, -1, -1, -1,
  -1, -1, -1, -1, -1, -1, -1, -1, -1]

/-- `while (p != end && *p == 0) p++`, src/base58.c:34-37, 61 and 117.  First argument: `end - p`;
result: offset where the loop stops. -/
def skipZeroes (buf : List Byte) : Nat → Nat → Res Nat
  | 0, p => .ok p
  | k+1, p => do
    let b ← rd buf p
    if b = 0#8 then skipZeroes buf k (p+1) else pure p

/-- The carry loops, src/base58.c:48-53 (`base = 58`, `mul = 256`) and 99-104 (`base = 256`,
`mul = 58`).  First recursive argument: `it + 1`. Returns the buffer, `i` and `carry`; `carry` is an
`int`, so a value of 2^31 or more would be undefined. -/
def carryLoop (base mul length : Nat) : Nat → Nat → Nat → List Byte → Res (List Byte × Nat × Nat)
  | 0, i, carry, buf => .ok (buf, i, carry)
  | it+1, i, carry, buf => do
    if carry ≠ 0 ∨ i < length then
      let d ← rd buf it
      let carry := carry + mul * d.toNat
      if carry ≥ 2^31 then .ub
      else
        let buf ← wr buf it (BitVec.ofNat 8 (carry % base))
        carryLoop base mul length it (i+1) (carry / base) buf
    else pure (buf, i, carry)

/-- Loop body, src/base58.c:45-57, at input offset `p`. State: `b58` and `length`. -/
def encBody (buf : List Byte) (size : Nat) (p : Nat) (st : List Byte × Nat) :
    Res (List Byte × Nat) := do
  let (b58, length) := st
  let b ← rd buf p
  let (b58, i, carry) ← carryLoop 58 256 length size 0 b.toNat b58
  assertC (carry == 0)
  pure (b58, i)

/-- src/base58.c:65: `str[zeroes++] = BASE58_ENCODE[*iter++]`; `iter0` is the first `iter`. -/
def encOut (b58 : List Byte) (zeroes iter0 : Nat) (iter : Nat) (str : List Byte) : Res (List Byte) := do
  let d ← rd b58 iter
  let c ← rd BASE58_ENCODE d.toNat
  wr str (zeroes + (iter - iter0)) c

/-- `fingera_to_base58`, src/base58.c:29-71. A `size` that does not fit an `int` (line 48 casts it)
is outside the model and reported as undefined. Returns the output object and the return value. -/
def toBase58 (buf : List Byte) (bufSize : Nat) (str : List Byte) : Res (List Byte × Nat) := do
  let zeroes ← skipZeroes buf bufSize 0
  let size := (bufSize - zeroes) * 138 / 100 + 1
  if size ≥ 2^31 then .ub
  else
    let b58 := List.replicate size 0#8
    let (b58, length) ← forLoop (encBody buf size) zeroes (bufSize - zeroes) (b58, 0)
    let iter ← skipZeroes b58 length (size - length)
    let str ← memset str 0 (chr '1') zeroes
    let str ← forLoop (encOut b58 zeroes iter) iter (size - iter) str
    pure (str, zeroes + (size - iter))

/-- `isspace(c)` for `char c` in the "C" locale.  Where `char` is signed (`cs`) a negative argument
other than EOF (-1) is undefined (C11 7.4p1). -/
def isspace (cs : Bool) (c : Byte) : Res Bool :=
  if cs && 128 ≤ c.toNat && c.toNat < 255 then .ub
  else .ok (c.toNat = 32 || (9 ≤ c.toNat && c.toNat ≤ 13))

/-- `while (*str && isspace(*str)) str++`, src/base58.c:76-78.  The pointer is represented by the
rest of the object; also returns how far it moved. -/
def skipSpaces (cs : Bool) : List Byte → Nat → Res (List Byte × Nat)
  | [], _ => .ub
  | c :: r, n => do
    if c = 0#8 then pure (c :: r, n)
    else if ← isspace cs c then skipSpaces cs r (n+1) else pure (c :: r, n)

/-- `while (*str == '1')`, src/base58.c:81-84. -/
def countOnes : List Byte → Nat → Res (List Byte × Nat)
  | [], _ => .ub
  | c :: r, n => if c = chr '1' then countOnes r (n+1) else .ok (c :: r, n)

/-- Result of the digit loop: `none` stands for the early `return 0` of lines 93-97. -/
abbrev DigitsResult := Option (List Byte × List Byte × Nat)

/-- Digit loop, src/base58.c:90-108. Returns the rest of the string, `b256` and `length`. -/
def digitLoop (cs : Bool) (size : Nat) : List Byte → List Byte → Nat → Res DigitsResult
  | [], _, _ => .ub
  | c :: r, b256, length => do
    if c = 0#8 then pure (some (c :: r, b256, length))
    else if ← isspace cs c then pure (some (c :: r, b256, length))
    else
      let v ← rd BASE58_DECODE c.toNat
      if v = -1 then pure none
      else
        let (b256, i, carry) ← carryLoop 256 58 length size 0 v.toNat b256
        assertC (carry == 0)
        digitLoop cs size r b256 i

/-- `while (isspace(*str)) str++`, src/base58.c:110. -/
def skipTrailing (cs : Bool) : List Byte → Res (List Byte)
  | [] => .ub
  | c :: r => do if ← isspace cs c then skipTrailing cs r else pure (c :: r)

/-- src/base58.c:121: `out[zeroes++] = *it++`. -/
def decOut (b256 : List Byte) (zeroes it0 : Nat) (it : Nat) (out : List Byte) : Res (List Byte) := do
  let d ← rd b256 it
  wr out (zeroes + (it - it0)) d

/-- src/base58.c:86: `int size = (int)(str_end - str) * 733 / 1000 + 1`, for `d = str_end - str`.
Values outside `int` are undefined (the cast itself: implementation-defined, treated alike); a
negative size makes `malloc` fail. -/
def workSize (d : Int) : Res Nat :=
  if d < -2^31 ∨ 2^31 ≤ d ∨ d * 733 < -2^31 ∨ 2^31 ≤ d * 733 then .ub
  else
    let size := Int.tdiv (d * 733) 1000 + 1
    if size < 0 then .ub else .ok size.toNat

/-- `fingera_from_base58`, src/base58.c:73-126.  `cs`: plain `char` is signed. Returns the output
object and the return value. -/
def fromBase58 (cs : Bool) (str : List Byte) (strLen : Nat) (buf : List Byte) :
    Res (List Byte × Nat) := do
  let (str1, skipped) ← skipSpaces cs str 0
  let (str2, zeroes) ← countOnes str1 0
  if zeroes ≥ 2^31 then .ub
  else
    let size ← workSize ((strLen : Int) - (skipped : Int) - (zeroes : Int))
    let b256 := List.replicate size 0#8
    match ← digitLoop cs size str2 b256 0 with
    | none => pure (buf, 0)
    | some (str3, b256, length) =>
      let str4 ← skipTrailing cs str3
      let c ← rd str4 0
      if c ≠ 0#8 then pure (buf, 0)
      else
        let it ← skipZeroes b256 length (size - length)
        let out ← memset buf 0 0#8 zeroes
        let out ← forLoop (decOut b256 zeroes it) it (size - it) out
        pure (out, zeroes + (size - it))

end Base58
