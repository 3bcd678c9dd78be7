import Verif.Spec.Sha2
import Verif.Spec.Hmac
import Verif.Spec.Ripemd160

/-! Bitcoin's compositions of hash functions. -/
namespace BtcHashSpec
open Sha2Spec RipemdSpec HmacSpec WordSpec

def hash160 (m : List (BitVec 8)) : List (BitVec 8) := RIPEMD160 (SHA256 m)
def hash256 (m : List (BitVec 8)) : List (BitVec 8) := SHA256 (SHA256 m)
/-- BIP 32: `HMAC-SHA512(Key = chain code, Data = header || data || ser32(i))`. -/
def bip32 (chain : List (BitVec 8)) (header : BitVec 8) (data : List (BitVec 8)) (child : BitVec 32) :
    List (BitVec 8) :=
  hmac SHA512 128 chain (header :: data ++ beBytes 4 child.toNat)

end BtcHashSpec
