import Verif.Props.Hash
import Verif.Props.Address
import Verif.Props.Wif
import Verif.Cases.Texts
/-!
Every theorem of `Props/Hash`, `Props/Address` and `Props/Wif` that has hypotheses, applied to concrete arguments that meet them.
-/
namespace Cases

section
open Endian Sha2Spec Sha1Spec RipemdSpec HmacSpec WordSpec

/-! ### Hash -/
example := C25_sha256 .little (cstr "hello world") 5 (aa 33) (by decide +kernel) (by decide +kernel) (by decide +kernel)
example := C26_sha512 .big (cstr "hello world") 5 (aa 65) (by decide +kernel) (by decide +kernel) (by decide +kernel)
example := C27_sha1 .little (cstr "hello world") 11 (aa 20) (by decide +kernel) (by decide +kernel) (by decide +kernel)
example := C28_ripemd160 .big (cstr "hello world") 11 (aa 25) (by decide +kernel) (by decide +kernel) (by decide +kernel)
example := C29_hmac_sha256 .little (List.replicate 131 0xaa#8) 131 (cstr "what do ya want") 15 (aa 32) (by decide +kernel) (by decide +kernel) (by decide +kernel)
  (by decide +kernel) (by decide +kernel)
example := C30_hmac_sha512 .big (List.replicate 131 0xaa#8) 131 (cstr "what do ya want") 15 (aa 64) (by decide +kernel) (by decide +kernel) (by decide +kernel)
  (by decide +kernel) (by decide +kernel)
example := C31_hash256_d64 .little (aa 100) (List.replicate 192 1#8) 3 (by decide +kernel) (by decide +kernel)
example := C31_hash256_d64_digests .little (aa 100) (List.replicate 192 1#8) 3 (by decide +kernel) (by decide +kernel)
example := C32_bip32_hash .little (List.replicate 32 5#8) 0x80000001#32 0#8 (List.replicate 32 9#8) (aa 64) (by decide +kernel) (by decide +kernel) (by decide +kernel)
example := C32_compositions .big (cstr "hello world") 11 (aa 40) (by decide +kernel) (by decide +kernel) (by decide +kernel)
example := C33_hashes_host_independent .little .big (cstr "hello world") 11 (List.replicate 131 0xaa#8) 131 (aa 64) (by decide +kernel) (by decide +kernel)
  (by decide +kernel) (by decide +kernel) (by decide +kernel)
example := C33_helpers .big [1#8, 2#8, 3#8, 4#8, 5#8] 1 (by decide +kernel) 0x11223344#32
example := C33_helpers64 .big [1#8, 2#8, 3#8, 4#8, 5#8, 6#8, 7#8, 8#8, 9#8] 1 (by decide +kernel)
example := (C33_read_write .big .little [1#8, 2#8, 3#8, 4#8, 5#8] [1#8, 0x44#8, 0x33#8, 0x22#8, 0x11#8] 1 0x11223344#32 (by decide +kernel)).1
  (by decide +kernel)
end

section
open Address AddressSpec

/-! ### Address -/

/-- The hash of a witness program, twenty bytes. -/
def h20 : List Byte := (List.range 20).map fun i => BitVec.ofNat 8 (7 * i + 1)
def h32 : List Byte := (List.range 32).map fun i => BitVec.ofNat 8 (5 * i + 3)
/-- What the stack holds before a call: bytes that no one set, a zero among them. -/
def junk : List Byte := List.replicate 64 0xAA#8 ++ 0#8 :: List.replicate 63 0x3D#8

theorem junk_nul (w : List Byte) (k : Nat) (hk : k ≤ 64) (hw : 61#8 ∉ w) : NulFirst (w ++ junk.drop k) := by
  refine ⟨w ++ List.replicate (64 - k) 0xAA#8, List.replicate 63 0x3D#8, ?_, ?_⟩
  · have : junk.drop k = List.replicate (64 - k) 0xAA#8 ++ 0#8 :: List.replicate 63 0x3D#8 := by
      rw [junk, List.drop_append_of_le_length (by rw [List.length_replicate]; omega), List.drop_replicate]
    rw [this, List.append_assoc]
  · simp only [List.mem_append, List.mem_replicate, not_or]
    exact ⟨hw, fun h => absurd h.2 (by decide +kernel)⟩

example := C41_base58_encoders .test .little h20 (aa 36) 35 (by decide +kernel) (by decide +kernel)
example := C41_witness_v0_encoders .main true h20 (aa 50) 42 (by decide +kernel)
example := C41_witness_unknown_encoder .reg (2#8 :: h20) (aa 50) 50 (by decide +kernel)
example := (C41_witness_unknown_encoder .reg (2#8 :: h20) (aa 50) 50 (by decide +kernel)).2 2#8 h20 rfl (by decide +kernel) (by decide +kernel)
example := C38_pubkey_roundtrip .main .little true [] h20 (aa 36) (cstr "xyz") (aa 27) (by decide +kernel) (by decide +kernel) (by decide +kernel)
example := C38_script_roundtrip .test .little true [] h20 (aa 36) (cstr "xyz") (aa 27) (by decide +kernel) (by decide +kernel) (by decide +kernel)
example := C39_keyhash_roundtrip_partial .main false .little true junk h20 (aa 44) [] (aa 30) (by decide +kernel) (by decide +kernel) (by decide +kernel)
  (junk_nul _ _ (by decide +kernel) (by decide +kernel))
example := C39_scripthash_roundtrip_partial .main false .little true junk h32 (aa 64) [] (aa 60) (by decide +kernel) (by decide +kernel) (by decide +kernel)
  (junk_nul _ _ (by decide +kernel) (by decide +kernel))
  (fun _ p => by rw [show Base58CheckSpec.decode? (witness Network.main.hrp 0#8 h32) = none from by decide +kernel]; exact nofun)
example := C40_witness_unknown_roundtrip_partial .main .little true junk 1#8 h32 (aa 64) [] (aa 60) (by decide +kernel) (by decide +kernel) (by decide +kernel)
  (by decide +kernel) (junk_nul _ _ (by decide +kernel) (by decide +kernel))
  (fun _ _ p => by rw [show Base58CheckSpec.decode? (witness Network.main.hrp 1#8 h32) = none from by decide +kernel]; exact nofun)
example := C42_base58_networks .main .test (by rw [Foreign]; decide) true .little true junk h20 (aa 36) [] (aa 28) (by decide +kernel) (by decide +kernel) (by decide +kernel)
  (by decide +kernel)
example := C42_witness_v0_networks .test .main (by decide +kernel) .little true junk h32 [] (aa 60) (by decide +kernel) (by decide +kernel) (by decide +kernel)
example := C42_witness_unknown_networks_partial .test .reg (by decide +kernel) .little true junk 16#8 h32 [] (aa 60) (by decide +kernel) (by decide +kernel) (by decide +kernel)
  (fun h => absurd h (by decide +kernel)) (by decide +kernel)

/-- The groups of a valid text are determined by the text: here those of a version 1 address. -/
theorem w50_groups (D : List Byte) (h : Bech32Spec.Valid (cstr "bc1pw50qtq0mkp") Network.main.hrp D) : D = [1#8, 14#8, 20#8, 15#8, 0#8] := by
  have hl : D.length = 5 := by
    obtain ⟨sum, h6, -, hm, -⟩ := h.parts
    have := congrArg List.length hm
    simp only [List.length_map, List.length_append, h6, List.length_singleton, show (cstr "bc1pw50qtq0mkp").length = 14 from rfl,
      show Network.main.hrp.length = 2 from rfl] at this
    omega
  have h' := C35_bech32_complete _ _ _ [] (aa 2) (aa 5) 2 h (by decide) (by decide) (by rw [hl]; decide)
  rw [show Bech32.decode (cstr "bc1pw50qtq0mkp" ++ [0#8]) (cstr "bc1pw50qtq0mkp").length (aa 2) 2 (aa 5) =
    .ok ⟨5, cstr "bc", 2, [1#8, 14#8, 20#8, 15#8, 0#8]⟩ from by decide +kernel] at h'
  injection h' with h'
  injection h' with _ _ _ h'
  rw [h', over, List.drop_eq_nil_of_le (by rw [hl]; decide), List.append_nil]

theorem w50_nul (D : List Byte) (h : Bech32Spec.Valid (cstr "bc1pw50qtq0mkp") Network.main.hrp D) : NulFirst (D.tail ++ junk.drop D.length) := by
  rw [w50_groups D h]
  exact junk_nul _ _ (by decide) (by decide)

theorem w50_padding (D : List Byte) (h : Bech32Spec.Valid (cstr "bc1pw50qtq0mkp") Network.main.hrp D) : PaddingOk D.tail := by
  rw [w50_groups D h, PaddingOk]
  decide +kernel

example := C43_decode_within_partial .main .little true junk (cstr "bc1pw50qtq0mkp") (cstr "xyz") (aa 11) (by decide) (by decide +kernel) w50_nul
example := C43_decode_within_usual_partial .main .little true junk (cstr "bc1pw50qtq0mkp") (cstr "xyz") (aa 11) (by decide) (by decide)
  (by decide) (by decide +kernel) (by decide +kernel) w50_nul
example := C43_violated_negative .main .little junk (cstr "23") [] (aa 30) 0xE9#8 (by decide) (by decide) (by decide)
example := C44_not_malleable_partial .main .little true junk junk (cstr "bc1pw50qtq0mkp") (cstr "bc1pw50qtq0mkp") [] (cstr "xyz") (aa 12) (aa 13)
  ⟨.witnessUnknown, [1#8, 0x75#8, 0x1e#8] ++ aa 9, 3⟩ ⟨.witnessUnknown, [1#8, 0x75#8, 0x1e#8] ++ aa 10, 3⟩
  (by decide) (by decide +kernel) (by decide +kernel) (by decide +kernel) (fun D h => ⟨w50_padding D h, w50_nul D h⟩) (fun D h => ⟨w50_padding D h, w50_nul D h⟩)
  (by decide +kernel) (by decide +kernel) (by decide) (by decide)
end

section
open Key AddressSpec WifSpec Base58Check

/-! ### Wif -/

/-- The number one as a secret key. -/
def one32 : List Byte := List.replicate 31 0#8 ++ [1#8]

example := C45_key_to_string .little .main one32 (aa 64) true (by decide) (by decide)
example := C45_wif_roundtrip false .little true .test one32 (aa 64) (cstr "xyz") (aa 32) true 7 (by decide) (by decide) (by decide)
example := C42_wif_networks false .little true .main .test one32 [] (aa 32) true 7 (by decide) (by decide) (by simp)
theorem h13DV (W : List Byte) (h : Base58Spec.decode? (cstr " 13DV5niCGP ") = some W) : W.length ≤ 40 := by
  rw [show Base58Spec.decode? (cstr " 13DV5niCGP ") = some [0, 1, 2, 3, 0xF7, 0xA3, 0x55, 0xC0] by decide +kernel] at h
  cases h; decide
example := C46_from_string_spec_partial false .little true .main (cstr " 13DV5niCGP ") [] (aa 33) 7 (by decide)
  ⟨by rw [Base58Spec.TooLong]; decide +kernel, fun h => not_negative (by decide) h.2⟩ (by decide) h13DV
example := C46_undefined_iff_partial false .little true .main (cstr " 13DV5niCGP ") [] (aa 33) 7 (by decide) (by decide)
example := C46_violated_undefined false .little true .main (cstr "2x" ++ [0xC3#8, 0xA9#8]) [] (aa 33) 7 (by decide)
  (fun h => h.1.2 ⟨rfl, cstr "2x", 0xC3#8, [0xA9#8], rfl, by decide, by decide, by decide +kernel⟩)
example := C46_violated_overrun true .little true .main (List.replicate 41 (chr '1')) [] (aa 32) (List.replicate 41 0#8) 0
    (by decide +kernel) (by decide +kernel) (by decide)
example := C46_from_string_sound false .little true .main (cstr "KwDiBf89QgGbjEhKnhXJuH7LrciVrZi3qYjgd9M7rFU73sVHnoWn") [] (aa 33) 5 (by decide) (by decide)
  ⟨true, one32 ++ aa 1, 1⟩ (by
    obtain ⟨s, n, h1, -, h2⟩ := C45_wif_roundtrip false .little true .main one32 (aa 64) [] (aa 33) true 5 (by decide) (by decide) (by decide)
    have h3 := C45_key_to_string .little .main one32 (aa 64) true (by decide) (by decide)
    rw [h3] at h1
    obtain ⟨h1, h4⟩ := Prod.mk.inj (Res.ok.inj h1)
    rw [← h1, ← h4, BtcHash.take_over rfl,
      show wif .main one32 true = cstr "KwDiBf89QgGbjEhKnhXJuH7LrciVrZi3qYjgd9M7rFU73sVHnoWn" from by decide +kernel, if_pos rfl,
      show over one32 (aa 33) = one32 ++ aa 1 from by decide +kernel] at h2
    exact h2) rfl
end
end Cases
