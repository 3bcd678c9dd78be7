import Verif.Spec.BtcHash
/-!
Merkle trees as Bitcoin uses them, written from the top down: a tree of height `k` over at most `2^k` hashes.  Where the right half of
a tree has no hashes, the left half is used twice.
-/
namespace MerkleSpec

/-- The root of the tree of height `k` over the hashes `l`. -/
def root : Nat → List (List (BitVec 8)) → List (BitVec 8)
  | 0, l => l.headD []
  | k+1, l =>
    if l.length ≤ 2 ^ k then BtcHashSpec.hash256 (root k l ++ root k l)
    else BtcHashSpec.hash256 (root k (l.take (2 ^ k)) ++ root k (l.drop (2 ^ k)))

end MerkleSpec
