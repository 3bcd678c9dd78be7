import Verif.Model.Basic

/-- `chain_parameters`, include/fingera_libc/btc/chain_parameters.h:15-33.  A pointer field is modelled by the
memory object it points to (here: string literals with their terminating NUL). -/
structure ChainParameters where
  prefixPubkeyAddress : List Byte
  prefixPubkeyAddressSize : Nat
  prefixScriptAddress : List Byte
  prefixScriptAddressSize : Nat
  prefixSecretKey : List Byte
  prefixSecretKeySize : Nat
  prefixExtPublicKey : List Byte
  prefixExtPublicKeySize : Nat
  prefixExtSecretKey : List Byte
  prefixExtSecretKeySize : Nat
  bech32Hrp : List Byte
  bech32HrpSize : Nat
deriving DecidableEq, Repr

/-- `g_mainnet_chain_parameters`, src/btc/chain_parameters.c:3-21. -/
def mainnet : ChainParameters where
  prefixPubkeyAddress := [0x00, 0]
  prefixPubkeyAddressSize := 1
  prefixScriptAddress := [0x05, 0]
  prefixScriptAddressSize := 1
  prefixSecretKey := [0x80, 0]
  prefixSecretKeySize := 1
  prefixExtPublicKey := [0x04, 0x88, 0xB2, 0x1E, 0]
  prefixExtPublicKeySize := 4
  prefixExtSecretKey := [0x04, 0x88, 0xAD, 0xE4, 0]
  prefixExtSecretKeySize := 4
  bech32Hrp := cstr "bc" ++ [0]
  bech32HrpSize := 2

/-- `g_testnet_chain_parameters`, src/btc/chain_parameters.c:23-41. -/
def testnet : ChainParameters where
  prefixPubkeyAddress := [0x6F, 0]
  prefixPubkeyAddressSize := 1
  prefixScriptAddress := [0xC4, 0]
  prefixScriptAddressSize := 1
  prefixSecretKey := [0xEF, 0]
  prefixSecretKeySize := 1
  prefixExtPublicKey := [0x04, 0x35, 0x87, 0xCF, 0]
  prefixExtPublicKeySize := 4
  prefixExtSecretKey := [0x04, 0x35, 0x83, 0x94, 0]
  prefixExtSecretKeySize := 4
  bech32Hrp := cstr "tb" ++ [0]
  bech32HrpSize := 2

/-- `g_regnet_chain_parameters`, src/btc/chain_parameters.c:43-61. -/
def regnet : ChainParameters where
  prefixPubkeyAddress := [0x6F, 0]
  prefixPubkeyAddressSize := 1
  prefixScriptAddress := [0xC4, 0]
  prefixScriptAddressSize := 1
  prefixSecretKey := [0xEF, 0]
  prefixSecretKeySize := 1
  prefixExtPublicKey := [0x04, 0x35, 0x87, 0xCF, 0]
  prefixExtPublicKeySize := 4
  prefixExtSecretKey := [0x04, 0x35, 0x83, 0x94, 0]
  prefixExtSecretKeySize := 4
  bech32Hrp := cstr "bcrt" ++ [0]
  bech32HrpSize := 4
