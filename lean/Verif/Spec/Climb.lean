import Verif.Spec.Bip32
/-! Back from the secret key of a descendant to that of its ancestor, for somebody who has the ancestor's extended public key. -/
namespace Bip32Spec
open Secp256k1

/-- `K`, `c`: public key and chain code of the ancestor; the indices on the way to the descendant (none of them hardened); `k`: the secret key of
the descendant.  At each level the number `IL` that was added is an HMAC of public data, and is subtracted again. -/
def climb (K : Pt) (c : Bytes) : List (BitVec 32) → Nat → Nat
  | [], k => k
  | i :: rest, k =>
    let I := pubI K c i
    let IL := parse256 (I.take 32)
    (climb (add (mul IL G) K) (I.drop 32) rest k + (n - IL)) % n

end Bip32Spec
