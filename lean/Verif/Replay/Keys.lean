import Verif.Replay.Btc
import Verif.Model.Key
import Verif.Model.Address
/-!
The project's own test cases (`/repo/tests`), replayed on the model by evaluation in the kernel.  These are tests of the model, not proofs
of properties: they guard against misreadings of the C text.  Generated by `tools/replay_gen.py`.
-/
namespace Replay

open Key

/-- `test_key`, tests/btc/key.cpp 12-38. -/
def wifCase (s hex : String) (param : ChainParameters) (compressed : Bool) : Bool :=
  let data := ofHex hex
  (match keyFromString false .little true (obj s) s.length (zeros 32) 0 param with
  | .ok r => r.ok && decide (r.key32 = data) && decide ((r.isCompressed ≠ 0) = (compressed = true))
  | _ => false) &&
  gives (keyToString .little data (zeros 64) compressed param) (padded (cstr s) 64, s.length)

/-- `verify_address`, tests/btc/key.cpp 263-284. -/
def verifyAddress (addr key : String) (compress : Bool) : Bool :=
  match keyFromString false .little true (obj key) key.length (zeros 32) 0 mainnet,
    Address.addressDecode .little true (zeros 4096) (obj addr) addr.length (zeros 64) 64 mainnet with
  | .ok r, .ok d => r.ok && decide ((r.isCompressed ≠ 0) = (compress = true)) && decide (d.kind = .pubkey) && decide (d.outSize = 20) &&
      gives (keyKeyid false .little r.key32 compress (zeros 20)) (d.out.take 20)
  | _, _ => false

example : (wifCase "5Kd3NBUAdUnhyzenEwVLy9pBKxSwXvE9FMPyR4UKZvpe6E3AgLr" "eddbdc1168f1daeadbd3e44c1e3f8f5a284c2029f78ad26af98583a499de5b19" mainnet false) = true := by decide +kernel

example : (wifCase "cTpB4YiyKiBcPxnefsDpbnDxFDffjqJob8wGCEDXxgQ7zQoMXJdH" "b9f4892c9e8282028fea1d2667c4dc5213564d41fc5783896a0d843fc15089f3" testnet true) = true := by decide +kernel

example : (verifyAddress "1NoJrossxPBKfCHuJXT4HadJrXRE9Fxiqs" "Kwr371tjA9u2rFSMZjTNun2PXXP3WPZu2afRHTcta6KxEUdm1vEw" true) = true := by decide +kernel

end Replay
