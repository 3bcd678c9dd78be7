import Verif.Replay.Basic
import Verif.Model.Bech32
import Verif.Model.Address
/-!
The project's own test cases (`/repo/tests`), replayed on the model by evaluation in the kernel.  These are tests of the model, not proofs
of properties: they guard against misreadings of the C text.  Generated by `tools/replay_gen.py`.
-/
namespace Replay

open Address

/-- The loop of tests/btc/bech32.cpp 34-53; the expected `hrp` and values are read off the string, not computed by the reference program. -/
def bech32Case (s : String) : Bool :=
  let low := cstr (String.ofList (s.toList.map Char.toLower))
  let pos := s.length - 1 - (s.toList.reverse.takeWhile (· ≠ '1')).length
  let alphabet := "qpzry9x8gf2tvdw0s3jn54khce6mua7l".toList
  let values : List Byte := ((low.drop (pos + 1)).take (s.length - pos - 7)).map
    (fun b => BitVec.ofNat 8 (alphabet.idxOf (Char.ofNat b.toNat)))
  gives (Bech32.encode (low.take pos) pos values values.length (zeros 128)) (padded low 128) &&
  decide (Bech32.encodeLength pos values.length = s.length) &&
  gives (Bech32.decode (obj s) s.length (zeros 128) 128 (zeros 128)) ⟨values.length, padded (low.take pos) 128, pos, padded values 128⟩

/-- The loop of tests/btc/bech32.cpp 76-81 (`hrp_size` is `sizeof (size_t)` there). -/
def bech32Bad (s : List Byte) : Bool :=
  match Bech32.decode (s ++ [0#8]) s.length (zeros 256) 8 (zeros 256) with
  | .ok r => decide (r.ret < 0)
  | _ => false

/-- `test_address`, tests/btc/address.cpp 14-92. -/
def addressCase (s hex : String) (param : ChainParameters) : Bool :=
  let data := ofHex hex
  match addressDecode .little true (zeros 4096) (obj s) s.length (zeros 512) 512 param with
  | .ok d =>
    let back (r : Res (List Byte × Nat)) : Bool := gives r (padded (cstr s) 128, s.length)
    match d.kind with
    | .bad => false
    | .pubkey => decide (d.outSize = 20) && decide (data.take 23 = [0x76#8, 0xa9#8, 0x14#8] ++ d.out.take 20) &&
        back (toAddressPubkey .little d.out 20 (zeros 128) 128 param)
    | .script => decide (d.outSize = 20) && decide (data.take 22 = [0xa9#8, 0x14#8] ++ d.out.take 20) &&
        back (toAddressScript .little d.out 20 (zeros 128) 128 param)
    | .witnessV0Keyhash => decide (d.outSize = 20) && decide (data.take 22 = [0x00#8, 0x14#8] ++ d.out.take 20) &&
        back (toAddressWitnessV0Keyhash true d.out 20 (zeros 128) 128 param)
    | .witnessV0Scripthash => decide (d.outSize = 32) && decide (data.take 34 = [0x00#8, 0x20#8] ++ d.out.take 32) &&
        back (toAddressWitnessV0Scripthash true d.out 32 (zeros 128) 128 param)
    | .witnessUnknown => decide (d.outSize + 1 = data.length) && decide (data.drop 2 = (d.out.take d.outSize).drop 1) &&
        back (toAddressWitnessUnknown d.out d.outSize (zeros 128) 128 param)
  | _ => false

/-- tests/btc/address.cpp 94-104 and 130-142. -/
def badAddress (s : String) (outSize : Nat) : Bool :=
  match addressDecode .little true (zeros 4096) (obj s) s.length (zeros outSize) outSize mainnet with
  | .ok d => decide (d.kind = .bad)
  | _ => false

example : gives (toAddressPubkey .little (obj "keyid") 5 (zeros 256) 1 mainnet) (zeros 256, 0) = true := by decide +kernel
example : gives (toAddressScript .little (obj "keyid") 5 (zeros 256) 1 mainnet) (zeros 256, 0) = true := by decide +kernel

example : (badAddress "keyid" 1) = true := by decide +kernel

example : (badAddress "xx1qpqyqszqgpqyqszqgpqyqszqgpqyqszqg23t9q4" 1024) = true := by decide +kernel

example : (badAddress "bc1qpqyqszqgpqyqszqgpqyqszqgpqyqszqgpqyqpnzxff" 1024) = true := by decide +kernel

example : (badAddress "bc17pqyqszqgpqyqszqgpqyqszqgpqyqszqg8d0gmc" 1024) = true := by decide +kernel

example : (bech32Case "A12UEL5L") = true := by decide +kernel

example : (bech32Case "a12uel5l") = true := by decide +kernel

example : (bech32Case "an83characterlonghumanreadablepartthatcontainsthenumber1andtheexcludedcharactersbio1tt5tgs") = true := by decide +kernel

example : (bech32Case "abcdef1qpzry9x8gf2tvdw0s3jn54khce6mua7lmqqqxw") = true := by decide +kernel

example : (bech32Case "11qqqqqqqqqqqqqqqqqqqqqqqqqqqqqqqqqqqqqqqqqqqqqqqqqqqqqqqqqqqqqqqqqqqqqqqqqqqqqqqqqqc8247j") = true := by decide +kernel

example : (bech32Case "split1checkupstagehandshakeupstreamerranterredcaperred2y9e3w") = true := by decide +kernel

example : (bech32Case "?1ezyfcl") = true := by decide +kernel

example : (bech32Bad [32#8, 49#8, 110#8, 119#8, 108#8, 100#8, 106#8, 53#8]) = true := by decide +kernel

example : (bech32Bad [127#8, 49#8, 97#8, 120#8, 107#8, 119#8, 114#8, 120#8]) = true := by decide +kernel

example : (bech32Bad [128#8, 49#8, 101#8, 121#8, 109#8, 53#8, 53#8, 104#8]) = true := by decide +kernel

example : (bech32Bad [97#8, 110#8, 56#8, 52#8, 99#8, 104#8, 97#8, 114#8, 97#8, 99#8, 116#8, 101#8, 114#8, 115#8, 108#8, 111#8, 110#8, 103#8, 104#8, 117#8, 109#8, 97#8, 110#8, 114#8, 101#8, 97#8, 100#8, 97#8, 98#8, 108#8, 101#8, 112#8, 97#8, 114#8, 116#8, 116#8, 104#8, 97#8, 116#8, 99#8, 111#8, 110#8, 116#8, 97#8, 105#8, 110#8, 115#8, 116#8, 104#8, 101#8, 110#8, 117#8, 109#8, 98#8, 101#8, 114#8, 49#8, 97#8, 110#8, 100#8, 116#8, 104#8, 101#8, 101#8, 120#8, 99#8, 108#8, 117#8, 100#8, 101#8, 100#8, 99#8, 104#8, 97#8, 114#8, 97#8, 99#8, 116#8, 101#8, 114#8, 115#8, 98#8, 105#8, 111#8, 49#8, 53#8, 54#8, 57#8, 112#8, 118#8, 120#8]) = true := by decide +kernel

example : (bech32Bad [112#8, 122#8, 114#8, 121#8, 57#8, 120#8, 48#8, 115#8, 48#8, 109#8, 117#8, 107#8]) = true := by decide +kernel

example : (bech32Bad [49#8, 112#8, 122#8, 114#8, 121#8, 57#8, 120#8, 48#8, 115#8, 48#8, 109#8, 117#8, 107#8]) = true := by decide +kernel

example : (bech32Bad [120#8, 49#8, 98#8, 52#8, 110#8, 48#8, 113#8, 53#8, 118#8]) = true := by decide +kernel

example : (bech32Bad [108#8, 105#8, 49#8, 100#8, 103#8, 109#8, 116#8, 51#8]) = true := by decide +kernel

example : (bech32Bad [100#8, 101#8, 49#8, 108#8, 103#8, 55#8, 119#8, 116#8, 255#8]) = true := by decide +kernel

example : (bech32Bad [65#8, 49#8, 71#8, 55#8, 83#8, 71#8, 68#8, 56#8]) = true := by decide +kernel

example : (bech32Bad [49#8, 48#8, 97#8, 48#8, 54#8, 116#8, 56#8]) = true := by decide +kernel

example : (bech32Bad [49#8, 113#8, 122#8, 122#8, 102#8, 104#8, 101#8, 101#8]) = true := by decide +kernel

example : (bech32Bad [97#8, 49#8, 50#8, 85#8, 69#8, 76#8, 53#8, 76#8]) = true := by decide +kernel

example : (bech32Bad [65#8, 49#8, 50#8, 117#8, 69#8, 76#8, 53#8, 76#8]) = true := by decide +kernel

example : (addressCase "1AGNa15ZQXAZUgFiqJ2i7Z2DPU2J6hW62i" "76a91465a16059864a2fdbc7c99a4723a8395bc6f188eb88ac" mainnet) = true := by decide +kernel

example : (addressCase "3CMNFxN1oHBc4R1EpboAL5yzHGgE611Xou" "a91474f209f6ea907e2ea48f74fae05782ae8a66525787" mainnet) = true := by decide +kernel

example : (addressCase "mo9ncXisMeAoXwqcV5EWuyncbmCcQN4rVs" "76a91453c0307d6851aa0ce7825ba883c6bd9ad242b48688ac" testnet) = true := by decide +kernel

example : (addressCase "2N2JD6wb56AfK4tfmM6PwdVmoYk2dCKf4Br" "a9146349a418fc4578d10a372b54b45c280cc8c4382f87" testnet) = true := by decide +kernel

example : (addressCase "bc1pw508d6qejxtdg4y5r3zarvary0c5xw7kw508d6qejxtdg4y5r3zarvary0c5xw7k7grplx" "5128751e76e8199196d454941c45d1b3a323f1433bd6751e76e8199196d454941c45d1b3a323f1433bd6" mainnet) = true := by decide +kernel

example : (addressCase "bc1qw508d6qejxtdg4y5r3zarvary0c5xw7kv8f3t4" "0014751e76e8199196d454941c45d1b3a323f1433bd6" mainnet) = true := by decide +kernel

example : (addressCase "bcrt1qw508d6qejxtdg4y5r3zarvary0c5xw7kygt080" "0014751e76e8199196d454941c45d1b3a323f1433bd6" regnet) = true := by decide +kernel

example : (addressCase "tb1qrp33g0q5c5txsp9arysrx4k6zdkfs4nce4xj0gdcccefvpysxf3q0sl5k7" "00201863143c14c5166804bd19203356da136c985678cd4d27a1b8c6329604903262" testnet) = true := by decide +kernel

example : (addressCase "bc1sw50qa3jx3s" "6002751e" mainnet) = true := by decide +kernel

example : (addressCase "bc1zw508d6qejxtdg4y5r3zarvaryvg6kdaj" "5210751e76e8199196d454941c45d1b3a323" mainnet) = true := by decide +kernel

example : (addressCase "tb1qqqqqp399et2xygdj5xreqhjjvcmzhxw4aywxecjdzew6hylgvsesrxh6hy" "0020000000c4a5cad46221b2a187905e5266362b99d5e91c6ce24d165dab93e86433" testnet) = true := by decide +kernel

example : (addressCase "bcrt1qqqqqp399et2xygdj5xreqhjjvcmzhxw4aywxecjdzew6hylgvseswlauz7" "0020000000c4a5cad46221b2a187905e5266362b99d5e91c6ce24d165dab93e86433" regnet) = true := by decide +kernel

end Replay
