import Verif.Spec.Collision
import Verif.Spec.Der
import Verif.Spec.BtcHash
/-! Key ids and addresses of keys (specification of C117). -/
namespace OneKey
open Secp256k1 WordSpec

/-- The public key of the secret key `key` in the chosen SEC 1 form: the text whose HASH160 is the key id. -/
def pubText (key : List (BitVec 8)) (compressed : Bool) : List (BitVec 8) := DerSpec.point compressed (mul (beNat key) G)

/-- `a` and `b` show that one of the two hash functions of HASH160 has a collision, and where it is. -/
def Shows (a b : List (BitVec 8)) : Prop :=
  Collide Sha2Spec.SHA256 a b ∨ Collide RipemdSpec.RIPEMD160 (Sha2Spec.SHA256 a) (Sha2Spec.SHA256 b)
end OneKey
