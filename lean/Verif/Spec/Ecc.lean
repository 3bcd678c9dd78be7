import Verif.Spec.Secp256k1
import Verif.Spec.Words
import Verif.Spec.Sha2
import Verif.Spec.Hmac
/-!
What is built on secp256k1: secret keys, the SEC 1 encodings of points, ECDSA, DER signatures and the
deterministic nonces of RFC 6979.  Independent of the model.
-/
namespace Secp256k1
open WordSpec

/-- A secret key: 32 bytes, big-endian, a number from 1 to `n - 1`. -/
def ValidKey (key : List (BitVec 8)) : Prop := key.length = 32 ∧ 0 < beNat key ∧ beNat key < n

instance : DecidablePred ValidKey := fun key => by unfold ValidKey; infer_instance

/-- SEC 1, section 2.3.3, with compression. -/
def compressed (x y : Nat) : List (BitVec 8) :=
  (if y % 2 = 0 then 0x02#8 else 0x03#8) :: beBytes 32 x

/-- SEC 1, section 2.3.3, without compression. -/
def uncompressed (x y : Nat) : List (BitVec 8) := 0x04#8 :: (beBytes 32 x ++ beBytes 32 y)

/-- The hybrid form of X9.62: without compression, but with the parity in the first byte. -/
def hybrid (x y : Nat) : List (BitVec 8) :=
  (if y % 2 = 0 then 0x06#8 else 0x07#8) :: (beBytes 32 x ++ beBytes 32 y)

/-- The public key of the secret key `d`. -/
def pub (d : Nat) : Pt := mul d G

/-- ECDSA (SEC 1, section 4.1.4): `(r, s)` is a signature of the number `z` under the public key `Q`. -/
def verify (Q : Pt) (z r s : Nat) : Bool :=
  if 0 < r ∧ r < n ∧ 0 < s ∧ s < n then
    match add (mul (z * invMod n s % n) G) (mul (r * invMod n s % n) Q) with
    | none => false
    | some (x, _) => x % n == r
  else false

/-- ECDSA (SEC 1, section 4.1.3) with the nonce `k`, and the smaller of `s` and `n - s` (BIP 146). -/
def sign (d z k : Nat) : Option (Nat × Nat) :=
  match mul k G with
  | none => none
  | some (x, _) =>
    let r := x % n
    let s := invMod n k * ((z + r * d) % n) % n
    if r = 0 ∨ s = 0 then none else some (r, if n / 2 < s then n - s else s)

/-- Bytes of a number, most significant first, without leading zero bytes. -/
def bytesOf (v : Nat) : List (BitVec 8) := (beBytes 33 v).dropWhile (· = 0#8)

/-- DER (X.690, 8.3) encoding of a non-negative integer below `2^256`: shortest two's complement. -/
def derInt (v : Nat) : List (BitVec 8) :=
  let c := match bytesOf v with
    | [] => [0#8]
    | b :: bs => if b.toNat < 128 then b :: bs else 0#8 :: b :: bs
  0x02#8 :: BitVec.ofNat 8 c.length :: c

/-- DER encoding of `SEQUENCE { r INTEGER, s INTEGER }`. -/
def derSig (r s : Nat) : List (BitVec 8) :=
  0x30#8 :: BitVec.ofNat 8 (derInt r ++ derInt s).length :: (derInt r ++ derInt s)

/-- HMAC-SHA256. -/
def hmac256 (k m : List (BitVec 8)) : List (BitVec 8) := HmacSpec.hmac Sha2Spec.SHA256 64 k m

/-- State `(K, V)` of the generator of RFC 6979, section 3.2, steps b to g, for the seed `data`. -/
def rfcInit (data : List (BitVec 8)) : List (BitVec 8) × List (BitVec 8) :=
  let V := List.replicate 32 0x01#8
  let K := List.replicate 32 0x00#8
  let K := hmac256 K (V ++ 0x00#8 :: data)
  let V := hmac256 K V
  let K := hmac256 K (V ++ 0x01#8 :: data)
  (K, hmac256 K V)

/-- The `i`-th number of the generator (step h): `V` becomes `HMAC_K(V)`; after a rejected candidate
`K = HMAC_K(V || 0)`, `V = HMAC_K(V)` first. -/
def rfcNonce (KV : List (BitVec 8) × List (BitVec 8)) : Nat → List (BitVec 8)
  | 0 => hmac256 KV.1 KV.2
  | i+1 =>
    let V := hmac256 KV.1 KV.2
    let K := hmac256 KV.1 (V ++ [0x00#8])
    rfcNonce (K, hmac256 K V) i

end Secp256k1
