import Verif.Spec.Collision
import Verif.Spec.Ecdsa
/-! Two signatures with the same first half (specification of C114). -/
namespace Secp256k1
open HmacSpec Sha2Spec

/-- Candidates for the secret key from two signatures `(r, s)` of `z` and `(r, s')` of `z'`: with `s·k = z + r·d` and `s'·k' = z' + r·d`, `k' = k` gives
`r·d·(s' - s) = s·z' - s'·z`, and `k' = -k` gives `r·d·(s' + s) = -(s·z' + s'·z)`, modulo `n`. -/
def keysFrom (r z s z' s' : Nat) : List Nat :=
  [(s * z' + (n - s') * z) * invMod n (r * (s' + (n - s))) % n, (n - (s * z' + s' * z) % n) * invMod n (r * (s' + s)) % n]

/-- What SHA-256 is given for one HMAC with a short key. -/
def hmacHashed (k m : List (BitVec 8)) : List (List (BitVec 8)) := [first SHA256 64 k m, second SHA256 64 k m]

/-- What SHA-256 is given by `rfcInit data`. -/
def initHashed (data : List (BitVec 8)) : List (List (BitVec 8)) :=
  let V := List.replicate 32 0x01#8
  let K := List.replicate 32 0x00#8
  let K1 := hmac256 K (V ++ 0x00#8 :: data)
  let V1 := hmac256 K1 V
  let K2 := hmac256 K1 (V1 ++ 0x01#8 :: data)
  hmacHashed K (V ++ 0x00#8 :: data) ++ hmacHashed K1 V ++ hmacHashed K1 (V1 ++ 0x01#8 :: data) ++ hmacHashed K2 V1

/-- What SHA-256 is given by `rfcNonce KV i`. -/
def nonceHashed (KV : List (BitVec 8) × List (BitVec 8)) : Nat → List (List (BitVec 8))
  | 0 => hmacHashed KV.1 KV.2
  | i+1 =>
    let V := hmac256 KV.1 KV.2
    let K := hmac256 KV.1 (V ++ [0x00#8])
    hmacHashed KV.1 KV.2 ++ hmacHashed KV.1 (V ++ [0x00#8]) ++ hmacHashed K V ++ nonceHashed (K, hmac256 K V) i

/-- The nonce of attempt `i` (additional data) and `j` (number of the generator). -/
def nonce (key hash : List (BitVec 8)) (i j : Nat) : Nat := WordSpec.beNat (rfcNonce (rfcInit (key ++ hash ++ extraData i)) j)

/-- What SHA-256 is given for it. -/
def allHashed (key hash : List (BitVec 8)) (i j : Nat) : List (List (BitVec 8)) :=
  initHashed (key ++ hash ++ extraData i) ++ nonceHashed (rfcInit (key ++ hash ++ extraData i)) j

end Secp256k1
