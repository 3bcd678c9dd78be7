import Verif.Spec.Merkle
/-! Collisions (specification of C113).

That a function from long texts to short ones has collisions is a fact of counting, and no property of a program. What matters is whether somebody can
name one: the theorems of C113 say of *given* texts that they collide. -/

/-- `x` and `y` are a collision of `H`. -/
def Collide (H : List (BitVec 8) → List (BitVec 8)) (x y : List (BitVec 8)) : Prop := x ≠ y ∧ H x = H y

namespace HmacSpec
/-- What is given to the hash function first, and what is given to it second, when the HMAC of `text` is computed. -/
def first (H : List (BitVec 8) → List (BitVec 8)) (B : Nat) (key text : List (BitVec 8)) : List (BitVec 8) :=
  (blockKey H B key).map (· ^^^ 0x36#8) ++ text
def second (H : List (BitVec 8) → List (BitVec 8)) (B : Nat) (key text : List (BitVec 8)) : List (BitVec 8) :=
  (blockKey H B key).map (· ^^^ 0x5c#8) ++ H (first H B key text)
end HmacSpec

namespace MerkleSpec
/-- Everything that is given to SHA-256 when the root of the tree over `l` is computed. -/
def hashed : Nat → List (List (BitVec 8)) → List (List (BitVec 8))
  | 0, _ => []
  | k+1, l =>
    if l.length ≤ 2 ^ k then
      (root k l ++ root k l) :: Sha2Spec.SHA256 (root k l ++ root k l) :: hashed k l
    else
      (root k (l.take (2 ^ k)) ++ root k (l.drop (2 ^ k))) :: Sha2Spec.SHA256 (root k (l.take (2 ^ k)) ++ root k (l.drop (2 ^ k))) ::
        (hashed k (l.take (2 ^ k)) ++ hashed k (l.drop (2 ^ k)))
end MerkleSpec

/-- One of the two is the other followed by zero bytes. -/
def SameUpToZeros (k k' : List (BitVec 8)) : Prop := ∃ z, k' = k ++ List.replicate z 0#8 ∨ k = k' ++ List.replicate z 0#8

namespace MerkleSpec
/-- All `2^k` hashes at the bottom of the tree of height `k` over `l`, with the repetitions. -/
def full : Nat → List (List (BitVec 8)) → List (List (BitVec 8))
  | 0, l => [l.headD []]
  | k+1, l => if l.length ≤ 2 ^ k then full k l ++ full k l else full k (l.take (2 ^ k)) ++ full k (l.drop (2 ^ k))
end MerkleSpec
