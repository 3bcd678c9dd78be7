import Verif.Spec.Base58
import Verif.Spec.BtcHash

/-! Base58Check: the payload followed by the first four bytes of its double SHA-256, in base58. -/
namespace Base58CheckSpec

def checksum (payload : List (BitVec 8)) : List (BitVec 8) := (BtcHashSpec.hash256 payload).take 4

def encode (payload : List (BitVec 8)) : List (BitVec 8) :=
  Base58Spec.encode (payload ++ checksum payload)

/-- Strip and verify the checksum of a decoded string. -/
def check? (W : List (BitVec 8)) : Option (List (BitVec 8)) :=
  if 4 ≤ W.length ∧ W.drop (W.length - 4) = checksum (W.take (W.length - 4))
  then some (W.take (W.length - 4)) else none

/-- Payload of a string (`none`: not base58, too short, wrong checksum). -/
def decode? (s : List (BitVec 8)) : Option (List (BitVec 8)) := (Base58Spec.decode? s).bind check?

end Base58CheckSpec
