import Verif.Spec.Ecc
import Verif.Spec.BtcHash
/-!
Child key derivation of BIP 32, after its section "Child key derivation (CKD) functions".  Independent of
the model.
-/
namespace Bip32Spec
open WordSpec Secp256k1

abbrev Bytes := List (BitVec 8)

/-- `ser32(i)`. -/
def ser32 (i : BitVec 32) : Bytes := beBytes 4 i.toNat

/-- `ser256(p)`. -/
def ser256 (k : Nat) : Bytes := beBytes 32 k

/-- `serP(P)`: the compressed form (not used for the point at infinity). -/
def serP : Pt → Bytes
  | none => []
  | some (x, y) => compressed x y

/-- `parse256(p)`. -/
def parse256 (b : Bytes) : Nat := beNat b

/-- `HMAC-SHA512(Key = c, Data = d)`. -/
def hmac (c d : Bytes) : Bytes := HmacSpec.hmac Sha2Spec.SHA512 128 c d

/-- The 64 bytes `I` of `CKDpriv((k, c), i)`. -/
def privI (k : Nat) (c : Bytes) (i : BitVec 32) : Bytes :=
  if 2 ^ 31 ≤ i.toNat then hmac c (0x00#8 :: ser256 k ++ ser32 i)
  else hmac c (serP (mul k G) ++ ser32 i)

/-- `CKDpriv((k, c), i)`: child key and chain code, `none` if `i` is not usable. -/
def ckdPriv (k : Nat) (c : Bytes) (i : BitVec 32) : Option (Nat × Bytes) :=
  let I := privI k c i
  let IL := parse256 (I.take 32)
  if n ≤ IL ∨ (IL + k) % n = 0 then none else some ((IL + k) % n, I.drop 32)

/-- The 64 bytes `I` of `CKDpub((K, c), i)`, `i` not hardened. -/
def pubI (K : Pt) (c : Bytes) (i : BitVec 32) : Bytes := hmac c (serP K ++ ser32 i)

/-- `CKDpub((K, c), i)`, `i` not hardened. -/
def ckdPub (K : Pt) (c : Bytes) (i : BitVec 32) : Option (Pt × Bytes) :=
  let I := pubI K c i
  let IL := parse256 (I.take 32)
  if n ≤ IL ∨ add (mul IL G) K = none then none else some (add (mul IL G) K, I.drop 32)

/-- Identifier of a public key, and the fingerprint: its first four bytes. -/
def identifier (K : Pt) : Bytes := BtcHashSpec.hash160 (serP K)
def fingerprint (K : Pt) : Bytes := (identifier K).take 4

/-- The fields of an extended key after the version bytes (BIP 32, "Serialization format"): depth, four bytes of parent
fingerprint, child number, chain code, key data. -/
def serialize (depth : BitVec 8) (fingerprint : Bytes) (child : BitVec 32) (chain keyData : Bytes) : Bytes :=
  [depth] ++ fingerprint ++ ser32 child ++ chain ++ keyData

/-- Key data of a private key: `0x00 || ser256(k)`. -/
def privData (key : Bytes) : Bytes := 0x00#8 :: key

end Bip32Spec
