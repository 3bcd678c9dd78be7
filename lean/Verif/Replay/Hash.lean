import Verif.Replay.Codec
import Verif.Model.Sha1
import Verif.Model.Sha2
import Verif.Model.Ripemd160
import Verif.Model.BtcHash
/-!
The project's own test cases (`/repo/tests`), replayed on the model by evaluation in the kernel.  These are tests of the model, not proofs
of properties: they guard against misreadings of the C text.  Generated by `tools/replay_gen.py`.
-/
namespace Replay

/-- `test_hash`, tests/hash.cpp 13-25 (`value` is at most some hundred characters here: the cases with a million are left out). -/
def hashCase (f : Host → List Byte → Nat → List Byte → Res (List Byte)) (size : Nat) (value hex : String) : Bool :=
  gives (f .little (obj value) value.length (zeros size)) (ofHex hex)

/-- `test_hmac_hash`, tests/hash.cpp 27-48. -/
def hmacCase (f : Host → List Byte → Nat → List Byte → Nat → List Byte → Res (List Byte)) (size : Nat) (key value hex : String) :
    Bool :=
  let k := ofHex key
  let v := ofHex value
  gives (f .little k k.length v v.length (zeros size)) (ofHex hex)


example : (hashCase Sha2.sha2_256 32 "" "e3b0c44298fc1c149afbf4c8996fb92427ae41e4649b934ca495991b7852b855") = true := by decide +kernel

example : (hashCase Sha2.sha2_256 32 "abc" "ba7816bf8f01cfea414140de5dae2223b00361a396177a9cb410ff61f20015ad") = true := by decide +kernel

example : (hashCase Sha2.sha2_256 32 "abcdbcdecdefdefgefghfghighijhijkijkljklmklmnlmnomnopnopq" "248d6a61d20638b8e5c026930c3e6039a33ce45964ff2167f6ecedd419db06c1") = true := by decide +kernel

example : (hashCase Sha2.sha2_256 32 "This is exactly 64 bytes long, not counting the terminating byte" "ab64eff7e88e2e46165e29f2bce41826bd4c7b3552f6b382a9e7d3af47c245f8") = true := by decide +kernel

example : (hashCase Sha2.sha2_256 32 "As Bitcoin relies on 80 byte header hashes, we want to have an example for that." "7406e8de7d6e4fffc573daef05aefb8806e7790f55eab5576f31349743cca743") = true := by decide +kernel

example : (hashCase Sha2.sha2_512 64 "abc" "ddaf35a193617abacc417349ae20413112e6fa4e89a97ea20a9eeee64b55d39a2192992a274fc1a836ba3c23a3feebbd454d4423643ce80e2a9ac94fa54ca49f") = true := by decide +kernel

example : (hashCase Sha2.sha2_512 64 "abcdefghbcdefghicdefghijdefghijkefghijklfghijklmghijklmnhijklmnoijklmnopjklmnopqklmnopqrlmnopqrsmnopqrstnopqrstu" "8e959b75dae313da8cf4f72814fc143f8f7779c6eb9f7fa17299aeadb6889018501d289e4900f7e4331b99dec4b5433ac7d329eeb6dd26545e96e55b874be909") = true := by decide +kernel

example : (hashCase Sha1.sha1 20 "abc" "a9993e364706816aba3e25717850c26c9cd0d89d") = true := by decide +kernel

example : (hashCase Sha1.sha1 20 "abcdbcdecdefdefgefghfghighijhijkijkljklmklmnlmnomnopnopq" "84983e441c3bd26ebaae4aa1f95129e5e54670f1") = true := by decide +kernel

example : (hashCase Sha1.sha1 20 "This is exactly 64 bytes long, not counting the terminating byte" "fb679f23e7d1ce053313e66e127ab1b444397057") = true := by decide +kernel

example : (hashCase Ripemd160.ripemd160 20 "abc" "8eb208f7e05d987a9b044a8e98c6b087f15a0bfc") = true := by decide +kernel

example : (hashCase Ripemd160.ripemd160 20 "abcdbcdecdefdefgefghfghighijhijkijkljklmklmnlmnomnopnopq" "12a053384a9c0c88e405a06c27dcf49ada62eb2b") = true := by decide +kernel

example : (hashCase Ripemd160.ripemd160 20 "This is exactly 64 bytes long, not counting the terminating byte" "eda31d51d3a623b81e19eb02e24ff65d27d67b37") = true := by decide +kernel

example : (hashCase BtcHash.hash160 20 "cea946542b91ca50e2afecba73cf546ce1383d82668ecb6265f79ffaa07daa49abb43e21a19c6b2b15c8882b4bc01085a8a5b00168139dcb8f4b2bbe22929ce196d43532898d98a3b0ea4d63112ba25e724bb50711e3cf55954cf30b4503b73d785253104c2df8c19b5b63e92bd6b1ff2573751ec9c508085f3f206c719aa4643776bf425344348cbf63f1450389" "FB4037C0906C8AF039020D6B04887BBCE913C6E8") = true := by decide +kernel

example : (hashCase BtcHash.hash256 32 "cea946542b91ca50e2afecba73cf546ce1383d82668ecb6265f79ffaa07daa49abb43e21a19c6b2b15c8882b4bc01085a8a5b00168139dcb8f4b2bbe22929ce196d43532898d98a3b0ea4d63112ba25e724bb50711e3cf55954cf30b4503b73d785253104c2df8c19b5b63e92bd6b1ff2573751ec9c508085f3f206c719aa4643776bf425344348cbf63f1450389" "52aa8dd6c598d91d580cc446624909e52a076064ffab67a1751f5758c9f76d26") = true := by decide +kernel

example : (hmacCase Sha2.hmac_sha256 32 "0b0b0b0b0b0b0b0b0b0b0b0b0b0b0b0b0b0b0b0b" "4869205468657265" "b0344c61d8db38535ca8afceaf0bf12b881dc200c9833da726e9376c2e32cff7") = true := by decide +kernel

example : (hmacCase Sha2.hmac_sha256 32 "aaaaaaaaaaaaaaaaaaaaaaaaaaaaaaaaaaaaaaaaaaaaaaaaaaaaaaaaaaaaaaaaaaaaaaaaaaaaaaaaaaaaaaaaaaaaaaaaaaaaaaaaaaaaaaaaaaaaaaaaaaaaaaaaaaaaaaaaaaaaaaaaaaaaaaaaaaaaaaaaaaaaaaaaaaaaaaaaaaaaaaaaaaaaaaaaaaaaaaaaaaaaaaaaaaaaaaaaaaaaaaaaaaaaaaaaaaaaaaaaaaaaaaaaaaaaaaaaaaaaaa" "54657374205573696e67204c6172676572205468616e20426c6f636b2d53697a65204b6579202d2048617368204b6579204669727374" "60e431591ee0b67f0d8a26aacbf5b77f8e0bc6213728c5140546040f0ee37f54") = true := by decide +kernel

example : (hmacCase Sha2.hmac_sha256 32 "4a6566654a6566654a6566654a6566654a6566654a6566654a6566654a6566654a6566654a6566654a6566654a6566654a6566654a6566654a6566654a6566654a" "7768617420646f2079612077616e7420666f72206e6f7468696e673f" "d06af337f359a2330deffb8e3cbe4b5b7aa8ca1f208528cdbd245d5dc63c4483") = true := by decide +kernel

example : (hmacCase Sha2.hmac_sha512 64 "4a656665" "7768617420646f2079612077616e7420666f72206e6f7468696e673f" "164b7a7bfcf819e2e395fbe73b56e0a387bd64222e831fd610270cd7ea2505549758bf75c05a994a6d034f65f8f0e6fdcaeab1a34d4a6b4b636e070a38bce737") = true := by decide +kernel

example : (hmacCase Sha2.hmac_sha512 64 "aaaaaaaaaaaaaaaaaaaaaaaaaaaaaaaaaaaaaaaaaaaaaaaaaaaaaaaaaaaaaaaaaaaaaaaaaaaaaaaaaaaaaaaaaaaaaaaaaaaaaaaaaaaaaaaaaaaaaaaaaaaaaaaaaaaaaaaaaaaaaaaaaaaaaaaaaaaaaaaaaaaaaaaaaaaaaaaaaaaaaaaaaaaaaaaaaaaaaaaaaaaaaaaaaaaaaaaaaaaaaaaaaaaaaaaaaaaaaaaaaaaaaaaaaaaaaaaaaaaaaa" "54657374205573696e67204c6172676572205468616e20426c6f636b2d53697a65204b6579202d2048617368204b6579204669727374" "80b24263c7c1a3ebb71493c1dd7be8b49b46d1f41b4aeec1121b013783f8f3526b56d037e05f2598bd0fd2215d6a1e5295e64f73f63f0aec8b915a985d786598") = true := by decide +kernel

end Replay
