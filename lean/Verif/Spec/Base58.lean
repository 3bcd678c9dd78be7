/-! Specification of base58: positional notation and the Bitcoin alphabet. -/
namespace Positional

/-- Number with the given digits, most significant first. -/
def value (base : Nat) (ds : List Nat) : Nat := ds.foldl (fun n d => n * base + d) 0

/-- Canonical digits, most significant first, no leading zero (`[]` for 0). -/
def digits (base : Nat) (n : Nat) : List Nat :=
  if _h : n = 0 ∨ base < 2 then [] else digits base (n / base) ++ [n % base]
termination_by n
decreasing_by exact Nat.div_lt_self (by omega) (by omega)

end Positional

namespace Base58Spec
open Positional

/-- The alphabet: digits and letters without `0`, `O`, `I`, `l`. -/
def alphabet : List Char := "123456789ABCDEFGHJKLMNPQRSTUVWXYZabcdefghijkmnopqrstuvwxyz".toList

def char (d : Nat) : BitVec 8 := BitVec.ofNat 8 ((alphabet[d]?.getD '1').toNat)

/-- Value of a character, `none` if it is not in the alphabet. -/
def value? (c : BitVec 8) : Option Nat := alphabet.findIdx? (fun a => a.toNat = c.toNat)

/-- Big-endian number of a byte string. -/
def number (bs : List (BitVec 8)) : Nat := value 256 (bs.map BitVec.toNat)

/-- One `'1'` per leading zero byte, then the base-58 digits of the number. -/
def encode (bs : List (BitVec 8)) : List (BitVec 8) :=
  List.replicate (bs.takeWhile (· = 0#8)).length 49#8 ++ (digits 58 (number bs)).map char

/-- White space of the C locale. -/
def isSpace (c : BitVec 8) : Bool := c.toNat = 32 || (9 ≤ c.toNat && c.toNat ≤ 13)

/-- Bytes of a string of base-58 digits: one zero byte per leading `'1'`, then the number. -/
def bytes (cs : List (BitVec 8)) : List (BitVec 8) :=
  List.replicate (cs.takeWhile (· = 49#8)).length 0#8 ++
    (digits 256 (value 58 (cs.filterMap value?))).map (BitVec.ofNat 8)

/-- Decoding of a whole string: blanks, base-58 digits, blanks; anything else is rejected. -/
def decode? (s : List (BitVec 8)) : Option (List (BitVec 8)) :=
  let t := s.dropWhile isSpace
  let body := t.takeWhile (fun c => !isSpace c)
  let rest := t.dropWhile (fun c => !isSpace c)
  if body.all (fun c => (value? c).isSome) && rest.all isSpace then some (bytes body) else none

/-! ### Limits of the C decoder (not of base58) -/

/-- A character that is negative where `char` is signed and is not `EOF`: outside the domain of `isspace`. -/
def Negative (c : BitVec 8) : Prop := 128 ≤ c.toNat ∧ c.toNat < 255

instance (c : BitVec 8) : Decidable (Negative c) := inferInstanceAs (Decidable (_ ∧ _))

/-- The text is scanned up to a negative character: what stands before the first one is blanks, digits, blanks. -/
def MeetsNegative (s : List (BitVec 8)) : Prop :=
  ∃ p b r, s = p ++ b :: r ∧ (∀ c ∈ p, ¬ Negative c) ∧ Negative b ∧ decode? p ≠ none

/-- Behind the leading blanks there are 2^31 `'1'`s or more, or 733 times the number of characters behind those reaches 2^31:
the `int` arithmetic of the decoder overflows. -/
def TooLong (s : List (BitVec 8)) : Prop :=
  2 ^ 31 ≤ ((s.dropWhile isSpace).takeWhile (· = 49#8)).length ∨
    2 ^ 31 ≤ ((s.dropWhile isSpace).dropWhile (· = 49#8)).length * 733

/-- The texts the C decoder can be given at all: within its `int` arithmetic and, where `char` is signed (`cs`), not scanned up to
a negative character. -/
def Readable (cs : Bool) (s : List (BitVec 8)) : Prop := ¬ TooLong s ∧ ¬ (cs = true ∧ MeetsNegative s)

end Base58Spec
