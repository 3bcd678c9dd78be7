import Verif.Props.InPlaceDer
import Verif.Props.InPlaceDerAny
import Verif.Cases.Keys
/-! The theorems of `Props/InPlaceDer` applied to concrete arguments that meet their hypotheses. -/
namespace Cases
open Key SecpLib Secp256k1 WordSpec Endian DerSpec

/-- An object of 400 bytes with the key of test vector 1 of BIP 32 at offset 50. -/
def keyAt50 : List Byte := List.replicate 50 7#8 ++ vector1Key ++ List.replicate 318 9#8
theorem keyAt50_length : keyAt50.length = 400 := by decide +kernel
theorem keyAt50_valid : ValidKey (part keyAt50 50 32) := by decide +kernel

/-- The encoding behind the key, around it (key in the later part), over it, and with the header on its last two bytes. -/
example := C106_key_encode_partial false keyAt50 50 100 true (by rw [keyAt50_length]; decide) (by rw [keyAt50_length]; decide) keyAt50_valid (by decide)
example := C106_key_encode_partial true keyAt50 50 5 false (by rw [keyAt50_length]; decide) (by rw [keyAt50_length]; decide) keyAt50_valid (by decide)
example := C106_key_encode_positions true keyAt50 50 50 true (by rw [keyAt50_length]; decide) (by rw [keyAt50_length]; decide) keyAt50_valid
example := C106_violated_key_encode_header true keyAt50 50 80 true (by rw [keyAt50_length]; decide) (by rw [keyAt50_length]; decide) keyAt50_valid
  (by decide) (by decide)

/-- The shortest header in front of the key 1 (the rest of the encoding is not read). -/
def der1 : List Byte := [0x30#8, 0x81#8, 0x06#8, 0x02#8, 0x01#8, 0x01#8, 0x04#8, 0x01#8, 0x01#8]
def objDer : List Byte := List.replicate 40 7#8 ++ der1 ++ List.replicate 40 9#8

example := C106_key_decode_separate_partial objDer 40 9 5 (by decide) (by decide) (by decide)
example := C106_key_decode_separate_partial objDer 40 9 49 (by decide) (by decide) (by decide)
/-- The encoding is that of a valid key - read apart it is accepted, read in place refused. -/
example : privateKey? (part objDer 40 9) = some one32 ∧ ValidKey one32 := by decide +kernel
example := C106_violated_key_decode_over_encoding objDer 40 9 40 (by decide) (by decide) (by decide)
example := C106_violated_key_decode_over_encoding objDer 40 9 9 (by decide) (by decide) (by decide)

/-- A layout of signatures: two numbers of 32 bytes, the lowest first. -/
def layout (s : Sig) : List Byte := (beBytes 32 s.r).reverse ++ (beBytes 32 s.s).reverse
theorem layout_length (s : Sig) : (layout s).length = 64 := by simp [layout, beBytes_length]
def sig12 : List Byte := [0x30#8, 0x06#8, 0x02#8, 0x01#8, 0x01#8, 0x02#8, 0x01#8, 0x02#8]
def objSig : List Byte := List.replicate 70 7#8 ++ sig12 ++ List.replicate 70 9#8

example := C106_signature_decode_separate_partial layout layout_length objSig 70 8 3 (by decide +kernel) (by decide +kernel) (by decide) (by decide)
example : signature? (part objSig 70 8) = some (1, 2) := by decide +kernel
example := C106_violated_signature_decode_over_encoding layout (by decide +kernel) objSig 70 8 70 (by decide +kernel) (by decide +kernel) (by decide) (by decide) (by decide)
example := C106_signature_decode_positions layout layout_length objSig 70 8 72 (by decide +kernel) (by decide +kernel) (by decide)

/-- Results that begin in the encoding: over the header the encoding is refused. -/
example := C106_key_decode_positions objDer 40 9 44 (by decide) (by decide)
example : InPlace.keyDecode objDer 40 9 44 = .ok (put objDer 44 (List.replicate 32 0#8), false) := by decide +kernel
example : InPlace.keyDecode (part objDer 0 48 ++ List.replicate 40 1#8) 40 9 47 = .ok (put (part objDer 0 48 ++ List.replicate 40 1#8) 47 (List.replicate 32 0#8), false) := by
  decide +kernel

/-- The encoding of the key of test vector 1 at offset 50. -/
def derAt50 : List Byte := List.replicate 50 7#8 ++ (ecPrivateKey vector1Key true ++ List.replicate 60 9#8)
theorem derAt50_parts : part derAt50 50 214 = ecPrivateKey vector1Key true ∧ derAt50.length = 324 := by
  have hl := (InPlace.ecPrivateKey_parts vector1Key true m1_wf.1).1
  simp only [if_true] at hl
  constructor
  · rw [part, derAt50, List.drop_left' List.length_replicate, List.take_left' hl]
  · rw [derAt50, List.length_append, List.length_append, hl, List.length_replicate, List.length_replicate]
/-- In front, over the header, over the key, over the rest of the encoding. -/
example := C106_key_decode_own_encoding derAt50 50 10 true vector1Key m1_wf.1 derAt50_parts.1 (by rw [derAt50_parts.2]; decide) (by rw [derAt50_parts.2]; decide)
example := C106_key_decode_own_encoding derAt50 50 55 true vector1Key m1_wf.1 derAt50_parts.1 (by rw [derAt50_parts.2]; decide) (by rw [derAt50_parts.2]; decide)
example := C106_key_decode_own_encoding derAt50 50 60 true vector1Key m1_wf.1 derAt50_parts.1 (by rw [derAt50_parts.2]; decide) (by rw [derAt50_parts.2]; decide)
example := C106_key_decode_own_encoding derAt50 50 90 true vector1Key m1_wf.1 derAt50_parts.1 (by rw [derAt50_parts.2]; decide) (by rw [derAt50_parts.2]; decide)

end Cases
