import Verif.Props.Hex
import Verif.Props.Base64
import Verif.Props.Base32
import Verif.Props.Base32Total
import Verif.Props.CompressInteger
import Verif.Props.Base58
import Verif.Props.Hash
import Verif.Props.Base58Check
import Verif.Props.Base58Total
import Verif.Props.Bech32
import Verif.Props.Bech32Errors
import Verif.Props.Address
import Verif.Props.Wif
import Verif.Props.Der
import Verif.Props.Bip32
import Verif.Props.Exkey
import Verif.Props.Random
import Verif.Props.KeyContext
import Verif.Props.Ecdsa
import Verif.Props.Secp256k1
import Verif.Props.Temporaries
import Verif.Props.Texts
import Verif.Props.RandomOs
import Verif.Props.TextKinds
import Verif.Props.Threads
import Verif.Props.InPlace
import Verif.Props.InPlaceKeys
import Verif.Props.OutOfMemory
import Verif.Props.SizeT
import Verif.Props.Overlap
import Verif.Props.Alignment
import Verif.Replay.Basic
import Verif.Replay.Codec
import Verif.Replay.Hash
import Verif.Replay.Btc
import Verif.Replay.Keys
import Verif.Cases.Codec
import Verif.Cases.Texts
import Verif.Cases.Address
import Verif.Cases.Keys
import Verif.Cases.Machine
import Verif.Props.Error
import Verif.Cases.Error
import Verif.Props.Injective
import Verif.Cases.Injective
import Verif.Props.Piecewise
import Verif.Cases.Piecewise
import Verif.Props.Wallet
import Verif.Cases.Wallet
import Verif.Props.Mistyped
import Verif.Cases.Mistyped
import Verif.Props.Rewritten
import Verif.Cases.Rewritten
import Verif.Props.Leakage
import Verif.Cases.Leakage
import Verif.Props.Need
import Verif.Cases.Need
import Verif.Props.NeedDecode
import Verif.Cases.NeedDecode
import Verif.Spec.Announced
import Verif.Lemmas.Announced
import Verif.Props.Announced
import Verif.Cases.Announced
import Verif.Model.Release
import Verif.Lemmas.Release
import Verif.Spec.Release
import Verif.Lemmas.ReleaseBase58
import Verif.Lemmas.ReleaseBech32
import Verif.Props.Release
import Verif.Cases.Release
import Verif.Lemmas.Bech32Insert
import Verif.Props.Inserted
import Verif.Cases.Inserted
import Verif.Model.Locale
import Verif.Spec.Locale
import Verif.Lemmas.Locale
import Verif.Props.Locale
import Verif.Cases.Locale
import Verif.Model.LeakageRead
import Verif.Spec.Work
import Verif.Lemmas.LeakageRead
import Verif.Lemmas.LeakageWork
import Verif.Lemmas.LeakageTextWork
import Verif.Lemmas.LeakageWorkLower
import Verif.Props.LeakageRead
import Verif.Props.Work
import Verif.Cases.LeakageRead
import Verif.Model.LeakageCodec
import Verif.Lemmas.LeakageCodec
import Verif.Props.WorkCodec
import Verif.Cases.WorkCodec
import Verif.Lemmas.LeakageCodecTells
import Verif.Lemmas.LeakageCodecAlike
import Verif.Props.LeakageCodec
import Verif.Cases.LeakageCodec
import Verif.Props.Merkle
import Verif.Cases.Merkle
import Verif.Props.InPlaceBech32
import Verif.Cases.InPlaceBech32
import Verif.Props.InPlaceDer
import Verif.Props.InPlaceDerAny
import Verif.Cases.InPlaceDer
import Verif.Model.HexStream
import Verif.Props.HexStream
import Verif.Cases.HexStream
import Verif.Model.Pointers
import Verif.Props.Pointers
import Verif.Cases.Pointers
import Verif.Lemmas.LetterCase
import Verif.Lemmas.UpperAddress
import Verif.Props.LetterCase
import Verif.Props.UpperAddress
import Verif.Cases.LetterCase
import Verif.Spec.OwnParameters
import Verif.Props.OwnParameters
import Verif.Props.OwnExkey
import Verif.Props.OwnAddress
import Verif.Props.OwnWitness
import Verif.Cases.OwnParameters
import Verif.Spec.Binding
import Verif.Lemmas.Binding
import Verif.Props.Binding
import Verif.Cases.Binding
import Verif.Spec.Climb
import Verif.Props.Climb
import Verif.Cases.Climb
import Verif.Spec.Collision
import Verif.Props.Collision
import Verif.Cases.Collision
import Verif.Spec.Nonces
import Verif.Props.Nonces
import Verif.Cases.Nonces
import Verif.Spec.Extension
import Verif.Props.Extension
import Verif.Cases.Extension
import Verif.Spec.Order
import Verif.Props.Order
import Verif.Cases.Order
import Verif.Spec.OneKey
import Verif.Props.OneKey
import Verif.Cases.OneKey
import Verif.Props.Repeat
import Verif.Spec.Siblings
import Verif.Props.Siblings
import Verif.Cases.Siblings
