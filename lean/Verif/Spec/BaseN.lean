/-! Independent specification of RFC 4648 style encodings: the input is a stream of bits, most
significant bit of each byte first, that is cut into groups of `k` bits (6 for base64, 5 for
base32); an incomplete last group is filled with zero bits; each group is a digit. -/
namespace BaseN

/-- The `k` low bits of `n`, most significant first. -/
def bitsOf (k n : Nat) : List Bool := (List.range k).reverse.map (fun i => n.testBit i)

/-- The number with the given binary digits, most significant first. -/
def numOf (l : List Bool) : Nat := l.foldl (fun n b => 2 * n + b.toNat) 0

/-- Cut a list into consecutive pieces of length `k`; the last one may be shorter.
(The first argument only bounds the number of pieces.) -/
def cut {α : Type} : Nat → Nat → List α → List (List α)
  | 0, _, _ => []
  | n+1, k, l => if l = [] then [] else l.take k :: cut n k (l.drop k)
termination_by structural n => n

def chunksOf {α : Type} (k : Nat) (l : List α) : List (List α) := cut l.length k l

/-- Fill a group of bits with zeros to length `k`. -/
def zeroFill (k : Nat) (g : List Bool) : List Bool := g ++ List.replicate (k - g.length) false

/-- Digits (numbers below `2^k`) of a byte string. -/
def digitsOf (k : Nat) (bs : List (BitVec 8)) : List Nat :=
  (chunksOf k (bs.flatMap fun b => bitsOf 8 b.toNat)).map fun g => numOf (zeroFill k g)

/-- Bytes of a digit string: complete groups of 8 bits of the digits' bit stream. -/
def bytesOf (k : Nat) (ds : List Nat) : List (BitVec 8) :=
  ((chunksOf 8 (ds.flatMap fun d => bitsOf k d)).filter fun g => g.length = 8).map
    fun g => BitVec.ofNat 8 (numOf g)

/-- Values of the characters up to (excluding) the first group of `g` characters that contains an
illegal one. -/
def legalGroups (g : Nat) (val : BitVec 8 → Option Nat) (cs : List (BitVec 8)) : List Nat :=
  (((chunksOf g cs).takeWhile fun c => c.all fun x => (val x).isSome).flatten).filterMap val

end BaseN

namespace Base64Spec
open BaseN

/-- RFC 4648 table 1 (standard) / table 2 (URL-safe). -/
def char (url : Bool) (n : Nat) : BitVec 8 :=
  if n < 26 then BitVec.ofNat 8 (65 + n)              -- A..Z
  else if n < 52 then BitVec.ofNat 8 (97 + (n - 26))   -- a..z
  else if n < 62 then BitVec.ofNat 8 (48 + (n - 52))   -- 0..9
  else if n = 62 then (if url then 45#8 else 43#8)     -- '-' or '+'
  else (if url then 95#8 else 47#8)                    -- '_' or '/'

/-- Value of a character of the alphabet. -/
def value? (url : Bool) (c : BitVec 8) : Option Nat :=
  let n := c.toNat
  if 65 ≤ n ∧ n ≤ 90 then some (n - 65)
  else if 97 ≤ n ∧ n ≤ 122 then some (n - 97 + 26)
  else if 48 ≤ n ∧ n ≤ 57 then some (n - 48 + 52)
  else if c = (if url then 45#8 else 43#8) then some 62
  else if c = (if url then 95#8 else 47#8) then some 63
  else none

/-- RFC 4648 section 5 text without padding / section 4 text before padding. -/
def encodeRaw (url : Bool) (bs : List (BitVec 8)) : List (BitVec 8) :=
  (digitsOf 6 bs).map (char url)

/-- RFC 4648 section 4: pad with '=' to a multiple of four characters. -/
def encode (bs : List (BitVec 8)) : List (BitVec 8) :=
  let t := encodeRaw false bs
  t ++ List.replicate ((4 - t.length % 4) % 4) 61#8

/-- The digit values the library uses when decoding: those of the alphabet and, in the standard
variant only, `'='` counts as 0. -/
def decodeValue? (url : Bool) (c : BitVec 8) : Option Nat :=
  if !url && c = 61#8 then some 0 else value? url c

/-- Decoding of arbitrary text without trailing padding: everything before the first 4-character
group with an illegal character. -/
def decodeRaw (url : Bool) (cs : List (BitVec 8)) : List (BitVec 8) :=
  bytesOf 6 (legalGroups 4 (decodeValue? url) cs)

/-- Remove at most two trailing `'='`. -/
def strip (cs : List (BitVec 8)) : List (BitVec 8) :=
  if cs.getLast? = some 61#8 then
    (if cs.dropLast.getLast? = some 61#8 then cs.dropLast.dropLast else cs.dropLast)
  else cs

end Base64Spec

namespace Base32Spec
open BaseN

/-- RFC 4648 table 3, in lower case. -/
def char (n : Nat) : BitVec 8 :=
  if n < 26 then BitVec.ofNat 8 (97 + n) else BitVec.ofNat 8 (50 + (n - 26))   -- a..z, 2..7

/-- Value of a base32 character of either case. -/
def value? (c : BitVec 8) : Option Nat :=
  let n := c.toNat
  if 97 ≤ n ∧ n ≤ 122 then some (n - 97)
  else if 65 ≤ n ∧ n ≤ 90 then some (n - 65)
  else if 50 ≤ n ∧ n ≤ 55 then some (n - 50 + 26)
  else none

/-- RFC 4648 section 6, lower case, padded with '=' to a multiple of eight characters. -/
def encode (bs : List (BitVec 8)) : List (BitVec 8) :=
  let t := (digitsOf 5 bs).map char
  t ++ List.replicate ((8 - t.length % 8) % 8) 61#8

/-- The 5-bit groups themselves, one per byte. -/
def encodeRaw (bs : List (BitVec 8)) : List (BitVec 8) := (digitsOf 5 bs).map (BitVec.ofNat 8)

end Base32Spec
