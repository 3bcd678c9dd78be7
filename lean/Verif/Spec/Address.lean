import Verif.Spec.Base58Check
import Verif.Spec.Bech32
import Verif.Spec.BaseN
/-! Bitcoin addresses as text. -/
namespace AddressSpec

/-- The three Bitcoin networks of the library and their constants as published (Bitcoin Core,
chainparams). -/
inductive Network where
  | main | test | reg
deriving DecidableEq, Repr

namespace Network
def pubkeyVersion : Network → BitVec 8
  | main => 0x00#8 | test => 0x6F#8 | reg => 0x6F#8
def scriptVersion : Network → BitVec 8
  | main => 0x05#8 | test => 0xC4#8 | reg => 0xC4#8
def secretVersion : Network → BitVec 8
  | main => 0x80#8 | test => 0xEF#8 | reg => 0xEF#8
/-- `xpub` / `tpub`. -/
def extPublic : Network → List (BitVec 8)
  | main => [0x04#8, 0x88#8, 0xB2#8, 0x1E#8] | test => [0x04#8, 0x35#8, 0x87#8, 0xCF#8]
  | reg => [0x04#8, 0x35#8, 0x87#8, 0xCF#8]
/-- `xprv` / `tprv`. -/
def extSecret : Network → List (BitVec 8)
  | main => [0x04#8, 0x88#8, 0xAD#8, 0xE4#8] | test => [0x04#8, 0x35#8, 0x83#8, 0x94#8]
  | reg => [0x04#8, 0x35#8, 0x83#8, 0x94#8]
/-- `"bc"`, `"tb"`, `"bcrt"`. -/
def hrp : Network → List (BitVec 8)
  | main => [98#8, 99#8] | test => [116#8, 98#8] | reg => [98#8, 99#8, 114#8, 116#8]
end Network

/-- P2PKH / P2SH address: base58check of the network's version byte and the hash. -/
def base58 (version : BitVec 8) (hash : List (BitVec 8)) : List (BitVec 8) :=
  Base58CheckSpec.encode (version :: hash)

/-- BIP 173 segregated witness address: Bech32 with the network's human-readable part and, as data, the
witness version followed by the program in groups of five bits. -/
def witness (hrp : List (BitVec 8)) (version : BitVec 8) (program : List (BitVec 8)) : List (BitVec 8) :=
  Bech32Spec.encode hrp (version :: Base32Spec.encodeRaw program)

/-- BIP 173's rule for the bits left over when 5-bit groups are cut into bytes: at most four, all zero. -/
def PaddingOk (groups : List (BitVec 8)) : Prop :=
  let bits := groups.flatMap fun g => BaseN.bitsOf 5 g.toNat
  bits.length % 8 ≤ 4 ∧ ∀ b ∈ bits.drop (bits.length / 8 * 8), b = false

/-- The first byte of `m` that is NUL or `'='` exists and is NUL. -/
def NulFirst (m : List (BitVec 8)) : Prop := ∃ a b, m = a ++ 0#8 :: b ∧ 61#8 ∉ a

end AddressSpec
