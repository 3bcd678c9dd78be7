import Verif.Spec.Address
/-! Wallet import format. -/
namespace WifSpec
open AddressSpec

/-- The bytes of a secret key in wallet import format: the network's version byte, the key, and a byte 1
if the public key is to be compressed. -/
def payload (net : Network) (key : List (BitVec 8)) (compressed : Bool) : List (BitVec 8) :=
  net.secretVersion :: (key ++ if compressed then [1#8] else [])

/-- The text. -/
def wif (net : Network) (key : List (BitVec 8)) (compressed : Bool) : List (BitVec 8) :=
  Base58CheckSpec.encode (payload net key compressed)

end WifSpec
