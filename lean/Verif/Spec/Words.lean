/-!
Words and bytes as used by the hash standards (independent of the model).
-/
namespace WordSpec

/-- Big-endian number written by a list of bytes. -/
def beNat (bs : List (BitVec 8)) : Nat := bs.foldl (fun n b => n * 256 + b.toNat) 0

/-- Little-endian number written by a list of bytes. -/
def leNat : List (BitVec 8) → Nat
  | [] => 0
  | b :: bs => b.toNat + 256 * leNat bs

/-- The `n` bytes of `v`, most significant first. -/
def beBytes (n v : Nat) : List (BitVec 8) :=
  (List.range n).map fun i => BitVec.ofNat 8 (v / 256 ^ (n - 1 - i))

/-- The `n` bytes of `v`, least significant first. -/
def leBytes (n v : Nat) : List (BitVec 8) :=
  (List.range n).map fun i => BitVec.ofNat 8 (v / 256 ^ i)

/-- Split into consecutive pieces of `n` bytes (an incomplete last piece is dropped). -/
def pieces {α : Type} (n : Nat) (bs : List α) : List (List α) :=
  (List.range (bs.length / n)).map fun i => (bs.drop (n * i)).take n

/-- Rotation to the right, FIPS 180-4 section 3.2: `(x >> n) ∨ (x << (w - n))`. -/
def rotr {w : Nat} (n : Nat) (x : BitVec w) : BitVec w := (x >>> n) ||| (x <<< (w - n))

/-- Rotation to the left: `(x << n) ∨ (x >> (w - n))`. -/
def rotl {w : Nat} (n : Nat) (x : BitVec w) : BitVec w := (x <<< n) ||| (x >>> (w - n))

/-- Integer part of the `r`-th root of `n`, found bit by bit (`b` bits, most significant first). -/
def iroot (r n : Nat) : Nat → Nat → Nat
  | 0, acc => acc
  | b+1, acc => if (acc + 2^b)^r ≤ n then iroot r n b (acc + 2^b) else iroot r n b acc

/-- First `w` bits of the fractional part of the `r`-th root of `p`. -/
def fracRoot (r w p : Nat) : Nat := iroot r (p * 2^(r*w)) (w+10) 0 % 2^w

end WordSpec
