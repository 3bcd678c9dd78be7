import Verif.Spec.Ecc
/-!
The two lax DER grammars that `src/btc/key.c` says it accepts (comments at lines 11-20 and 166-186),
as functions on byte strings.  Independent of the model.
-/
namespace DerSpec
open WordSpec Secp256k1

abbrev Bytes := List (BitVec 8)

/-- A length descriptor: the length and what follows.  Short form: one byte below 128.  Long form: 128 + the
number of length bytes, then the length, big-endian, of which at most three bytes may be significant. -/
def length? : Bytes → Option (Nat × Bytes)
  | [] => none
  | b :: rest =>
    if b.toNat < 128 then some (b.toNat, rest)
    else
      let k := b.toNat - 128
      if k ≤ rest.length ∧ ((rest.take k).dropWhile (· = 0#8)).length ≤ 3 then some (beNat (rest.take k), rest.drop k) else none

/-- An INTEGER: its contents and what follows. -/
def integer? : Bytes → Option (Bytes × Bytes)
  | [] => none
  | tag :: rest =>
    if tag = 0x02#8 then
      match length? rest with
      | some (len, rest) => if len ≤ rest.length then some (rest.take len, rest.drop len) else none
      | none => none
    else none

/-- The header of a SEQUENCE is skipped; the length it states is ignored. -/
def sequence? : Bytes → Option Bytes
  | tag :: b :: rest =>
    if tag = 0x30#8 then
      if b.toNat < 128 then some rest
      else if b.toNat - 128 ≤ rest.length then some (rest.drop (b.toNat - 128)) else none
    else none
  | _ => none

/-- A signature: the two numbers, read as unsigned.  Anything may follow. -/
def signature? (inp : Bytes) : Option (Nat × Nat) :=
  match sequence? inp with
  | none => none
  | some body =>
    match integer? body with
    | none => none
    | some (r, rest) =>
      match integer? rest with
      | none => none
      | some (s, _) => some (beNat r, beNat s)

/-- An EC private key, C.4 of SEC 1: SEQUENCE header whose length takes one or two bytes and is not larger than
what follows; version 1; an OCTET STRING of at most 32 bytes, which is the key (zero-filled on the
left).  Anything may follow. -/
def privateKey? : Bytes → Option Bytes
  | tag :: b :: rest =>
    let k := b.toNat - 128
    if tag = 0x30#8 ∧ (b = 0x81#8 ∨ b = 0x82#8) ∧ k ≤ rest.length ∧
        beNat (rest.take k) ≤ (rest.drop k).length then
      match rest.drop k with
      | v0 :: v1 :: v2 :: os :: l :: rest =>
        if v0 = 0x02#8 ∧ v1 = 0x01#8 ∧ v2 = 0x01#8 ∧ os = 0x04#8 ∧ l.toNat ≤ 32 ∧ l.toNat ≤ rest.length then
          some (List.replicate (32 - l.toNat) 0#8 ++ rest.take l.toNat)
        else none
      | _ => none
    else none
  | _ => none

end DerSpec

namespace DerSpec
open WordSpec Secp256k1

/-- X.690, 8.1: tag, length in the shortest definite form (contents below 65536 bytes), contents. -/
def tlv (tag : BitVec 8) (c : Bytes) : Bytes :=
  tag :: ((if c.length < 128 then [BitVec.ofNat 8 c.length]
    else if c.length < 256 then [0x81#8, BitVec.ofNat 8 c.length]
    else [0x82#8, BitVec.ofNat 8 (c.length / 256), BitVec.ofNat 8 c.length]) ++ c)

/-- The contents of a non-negative INTEGER: shortest two's complement. -/
def uint (v : Nat) : Bytes := tlv 0x02#8 (match bytesOf v with
  | [] => [0#8]
  | b :: bs => if b.toNat < 128 then b :: bs else 0#8 :: b :: bs)

/-- `ECParameters` of secp256k1, C.2 of SEC 1: version 1, the prime field (1.2.840.10045.1.1), the
coefficients 0 and 7, the base point, its order, the cofactor 1. -/
def parameters (base : Bytes) : Bytes :=
  tlv 0x30#8 (uint 1 ++
    tlv 0x30#8 (tlv 0x06#8 [0x2A#8, 0x86#8, 0x48#8, 0xCE#8, 0x3D#8, 0x01#8, 0x01#8] ++ uint p) ++
    tlv 0x30#8 (tlv 0x04#8 [0#8] ++ tlv 0x04#8 [7#8]) ++
    tlv 0x04#8 base ++ uint n ++ uint 1)

/-- A point in the chosen SEC 1 form (the point at infinity does not occur). -/
def point (compr : Bool) : Pt → Bytes
  | none => [0#8]
  | some (x, y) => if compr then compressed x y else uncompressed x y

/-- `ECPrivateKey`, C.4 of SEC 1, with explicit parameters and the public key. -/
def ecPrivateKey (key : Bytes) (compr : Bool) : Bytes :=
  tlv 0x30#8 (uint 1 ++ tlv 0x04#8 key ++ tlv 0xA0#8 (parameters (point compr G)) ++
    tlv 0xA1#8 (tlv 0x03#8 (0#8 :: point compr (pub (beNat key)))))

end DerSpec
