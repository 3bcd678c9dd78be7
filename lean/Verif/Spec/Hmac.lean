/-! HMAC as in RFC 2104 (byte strings; `H` the hash function, `B` its block size in bytes). -/
namespace HmacSpec

/-- The key, hashed first if it is longer than a block, padded with zero bytes to a block. -/
def blockKey (H : List (BitVec 8) → List (BitVec 8)) (B : Nat) (key : List (BitVec 8)) :
    List (BitVec 8) :=
  let k := if key.length ≤ B then key else H key
  k ++ List.replicate (B - k.length) 0#8

/-- `H(K XOR opad, H(K XOR ipad, text))`, RFC 2104 section 2. -/
def hmac (H : List (BitVec 8) → List (BitVec 8)) (B : Nat) (key text : List (BitVec 8)) :
    List (BitVec 8) :=
  let K := blockKey H B key
  H (K.map (· ^^^ 0x5c#8) ++ H (K.map (· ^^^ 0x36#8) ++ text))

end HmacSpec
