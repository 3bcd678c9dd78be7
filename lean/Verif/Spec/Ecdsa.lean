import Verif.Spec.Ecc
/-!
Which signature `fingera_btc_key_sign` has to produce: deterministic ECDSA in the manner of RFC 6979, repeated
with a counter as additional data until `r` is low.  Independent of the model.
-/
namespace Secp256k1
open WordSpec

/-- The 32 bytes of additional data of the `i`-th attempt: none for the first one, then a 32-bit counter, least
significant byte first, and zeros. -/
def extraData (i : Nat) : List (BitVec 8) := if i = 0 then [] else leBytes 4 i ++ List.replicate 28 0#8

/-- ECDSA with the `j`-th number of the RFC 6979 generator seeded with key, hash and additional data: no signature
if that number is not a scalar, or `r` or `s` would be 0. -/
def nonceSig (key hash : List (BitVec 8)) (extra : List (BitVec 8)) (j : Nat) : Option (Nat × Nat) :=
  let k := beNat (rfcNonce (rfcInit (key ++ hash ++ extra)) j)
  if 0 < k ∧ k < n then sign (beNat key) (beNat hash % n) k else none

/-- `(r, s)` is the deterministic signature for this additional data: the first one the generator leads to. -/
def DetSig (key hash extra : List (BitVec 8)) (r s : Nat) : Prop :=
  ∃ j, nonceSig key hash extra j = some (r, s) ∧ ∀ i < j, nonceSig key hash extra i = none

/-- `(r, s)` is the first deterministic signature with `r < 2^255`. -/
def LowRSig (key hash : List (BitVec 8)) (r s : Nat) : Prop :=
  ∃ i, DetSig key hash (extraData i) r s ∧ r < 2 ^ 255 ∧
    ∀ j < i, ∃ r' s', DetSig key hash (extraData j) r' s' ∧ 2 ^ 255 ≤ r'

end Secp256k1
