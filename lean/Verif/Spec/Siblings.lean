import Verif.Spec.Collision
import Verif.Spec.Bip32
/-! Children of one extended key (specification of C118), after "Child key derivation (CKD) functions" of BIP 32. -/
namespace Siblings
open Secp256k1 WordSpec Bip32Spec HmacSpec Sha2Spec

/-- What is given to HMAC-SHA512 for the child `i` of the private key `k`. -/
def privText (k : Nat) (i : BitVec 32) : List (BitVec 8) :=
  (if 2 ^ 31 ≤ i.toNat then 0x00#8 :: ser256 k else serP (mul k G)) ++ ser32 i

/-- What is given to HMAC-SHA512 for the child `i` (not hardened) of the public key `K`. -/
def pubText (K : Pt) (i : BitVec 32) : List (BitVec 8) := serP K ++ ser32 i

/-- The HMACs of `a` and `b` under the key `c` show a collision of SHA-512: at what is hashed first, or at what is hashed second. -/
def Shows (c a b : List (BitVec 8)) : Prop :=
  Collide SHA512 (first SHA512 128 c a) (first SHA512 128 c b) ∨ Collide SHA512 (second SHA512 128 c a) (second SHA512 128 c b)
end Siblings
