import Verif.Spec.Base58Check
/-! Texts of a chain that is not one of the three of the library: everything is said by the prefixes its user chose. -/
namespace OwnSpec

/-- Wallet import format with an arbitrary prefix: Base58Check of prefix, key, and a byte 1 if the public key is to be compressed. -/
def wif (pre key : List (BitVec 8)) (compressed : Bool) : List (BitVec 8) :=
  Base58CheckSpec.encode (pre ++ key ++ if compressed then [1#8] else [])

end OwnSpec
