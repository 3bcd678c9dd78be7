import Verif.Props.OwnAddress
import Verif.Props.OwnWitness
import Verif.Props.OwnExkey
import Verif.Cases.Keys
/-! Applications of the theorems of `Props/OwnParameters`, `Props/OwnExkey` and `Props/OwnAddress`. -/
namespace Cases
section
open Key Exkey Address AddressSpec Base58Check Own

/-- Parameters for which everything works: prefixes of three, four and two bytes, human-readable part `dash`. -/
def dash : ChainParameters where
  prefixPubkeyAddress := [0x4C, 0x01, 0]
  prefixPubkeyAddressSize := 2
  prefixScriptAddress := [0x4C, 0x02, 0]
  prefixScriptAddressSize := 2
  prefixSecretKey := [0xCC, 0x01, 0x02, 0]
  prefixSecretKeySize := 3
  prefixExtPublicKey := [0x02, 0xFE, 0x52, 0xCC, 0]
  prefixExtPublicKeySize := 4
  prefixExtSecretKey := [0x02, 0xFE, 0x52, 0]
  prefixExtSecretKeySize := 3
  bech32Hrp := cstr "dash" ++ [0]
  bech32HrpSize := 4

/-- Parameters with long prefixes, all of which the assertions admit. -/
def long : ChainParameters where
  prefixPubkeyAddress := [0x16, 0]
  prefixPubkeyAddressSize := 1
  prefixScriptAddress := [0x16, 0x05, 0]
  prefixScriptAddressSize := 2
  prefixSecretKey := [1, 2, 3, 4, 5, 6, 7, 8, 0]
  prefixSecretKeySize := 8
  prefixExtPublicKey := [1, 2, 3, 4, 5, 0]
  prefixExtPublicKeySize := 5
  prefixExtSecretKey := [1, 2, 3, 4, 5, 6, 0]
  prefixExtSecretKeySize := 6
  bech32Hrp := cstr "fingera-private-chain" ++ [0]
  bech32HrpSize := 21

/-- Parameters without prefixes. -/
def bare : ChainParameters where
  prefixPubkeyAddress := [0]
  prefixPubkeyAddressSize := 0
  prefixScriptAddress := [0]
  prefixScriptAddressSize := 0
  prefixSecretKey := [0]
  prefixSecretKeySize := 0
  prefixExtPublicKey := [0]
  prefixExtPublicKeySize := 0
  prefixExtSecretKey := [0]
  prefixExtSecretKeySize := 0
  bech32Hrp := cstr "bare" ++ [0]
  bech32HrpSize := 4

theorem dash_fits : Fits dash := ⟨by decide, by decide, by decide, by decide, by decide⟩
theorem long_fits : Fits long := ⟨by decide, by decide, by decide, by decide, by decide⟩
theorem bare_fits : Fits bare := ⟨by decide, by decide, by decide, by decide, by decide⟩

/-! ### Wallet import format -/
example := C110_key_to_string .little dash one32 (aa 62) true dash_fits (by decide) (by decide) (by decide +kernel)
example := C110_key_string_max_length long one32 true long_fits (by decide) (by decide)
example := C110_key_own_text false .little true dash one32 [] (aa 32) true 5 dash_fits (by decide) (by decide) (by decide)
example := C110_key_roundtrip_partial false .little true dash one32 (aa 62) [] (aa 33) true 5 dash_fits (by decide) (by decide) (by decide)
  (by decide) (by decide)
example := C110_violated_key_overrun false .little true long one32 [] (aa 32) false 5 long_fits (by decide) (by decide) (by decide) (by decide)
example := C110_violated_no_prefix false .little true bare one32 [] (aa 32) 5 rfl bare_fits (by decide) (by decide)

/-- The text of the key 1 under the parameters `dash`. -/
theorem dash_one : OwnSpec.wif (secret dash) one32 true = (cstr "B8uzVEWTvprTG3zPGry6hUdc4rtgWfNTxyY5tj8KTbXRbMBfW8eX4LJ") := by decide +kernel

example := C110_key_from_string_spec_partial false .little true dash (cstr "B8uzVEWTvprTG3zPGry6hUdc4rtgWfNTxyY5tj8KTbXRbMBfW8eX4LJ") [] (aa 32) 5 dash_fits (by decide) (by decide +kernel)
  (readable_of _ _ (by decide +kernel) (by decide +kernel)) (by decide) (by
    rw [show Base58Spec.decode? (cstr "B8uzVEWTvprTG3zPGry6hUdc4rtgWfNTxyY5tj8KTbXRbMBfW8eX4LJ") = some [204, 1, 2, 0, 0, 0, 0, 0, 0, 0, 0, 0, 0, 0, 0, 0, 0, 0, 0, 0, 0, 0, 0, 0, 0, 0, 0, 0, 0, 0, 0, 0, 0, 0, 1, 1, 231, 221, 149, 107] from by decide +kernel]
    intro W h; injection h with h; rw [← h]; decide)
example : ∃ key c, key.length = 32 ∧ trim58 (cstr "B8uzVEWTvprTG3zPGry6hUdc4rtgWfNTxyY5tj8KTbXRbMBfW8eX4LJ") = OwnSpec.wif (secret dash) key c := by
  have e := C110_key_own_text false .little true dash one32 [] (aa 32) true 5 dash_fits (by decide) (by decide) (by decide)
  rw [dash_one] at e
  obtain ⟨key, c, h1, h2, -⟩ := C110_key_from_string_sound false .little true dash (cstr "B8uzVEWTvprTG3zPGry6hUdc4rtgWfNTxyY5tj8KTbXRbMBfW8eX4LJ") [] (aa 32) 5 _ dash_fits (by decide) (by decide +kernel)
    (by decide) e rfl
  exact ⟨key, c, h1, h2⟩

/-! ### Extended keys -/
example := C110_exkey_to_string .little dash m1 p1 (aa 120) dash_fits m1_buf p1_buf (by decide +kernel)
example : dash.prefixExtSecretKeySize ≤ 8 ∧ dash.prefixExtPublicKeySize ≤ 8 := by decide
example := C110_exkey_own_text false .little true dash m1 kb [] dash_fits (by decide) m1_buf kb_buf
example := C110_expubkey_own_text false .little true dash p1 pb [] dash_fits (by decide) p1_buf pb_buf
example := C110_exkey_roundtrip_partial false .little true dash m1 kb p1 pb (aa 120) [] dash_fits m1_buf kb_buf p1_buf pb_buf (by decide +kernel)
example : 1 ≤ dash.prefixExtSecretKeySize ∧ dash.prefixExtSecretKeySize ≤ 4 ∧ 1 ≤ dash.prefixExtPublicKeySize ∧ dash.prefixExtPublicKeySize ≤ 4 := by
  decide
example := C110_violated_exkey_overrun false .little true long m1 kb [] long_fits (by decide) (by decide) m1_buf kb_buf
example := C110_violated_expubkey_overrun false .little true long p1 pb [] long_fits (by decide) (by decide) p1_buf pb_buf
example := C110_violated_exkey_no_prefix false .little true bare m1 kb p1 pb [] bare_fits m1_buf kb_buf p1_buf pb_buf
example : bare.prefixExtSecretKeySize = 0 ∧ bare.prefixExtPublicKeySize = 0 := by decide
example := C110_exkey_from_string_spec_partial false .little true dash (Own.xprv dash m1) [] kb dash_fits (by decide)
  (fun b hb => (encode58_chars _ b hb).2.1) (Own.text_readable true _ (by decide +kernel)) kb_buf (by
    rw [Own.xprv_decode]
    intro W h; injection h with h; rw [← h]; decide +kernel)
example := C110_expubkey_from_string_spec_partial false .little true dash (Own.xpub dash p1) [] pb dash_fits (by decide)
  (fun b hb => (encode58_chars _ b hb).2.1) (Own.text_readable true _ (by decide +kernel)) pb_buf (by
    rw [Own.xpub_decode]
    intro W h; injection h with h; rw [← h]; decide +kernel)
example := C110_exkey_from_string_sound false .little true dash (Own.xprv dash m1) [] kb m1 dash_fits (by decide)
  (fun b hb => (encode58_chars _ b hb).2.1) kb_buf (C110_exkey_own_text false .little true dash m1 kb [] dash_fits (by decide) m1_buf kb_buf)
example := C110_expubkey_from_string_sound false .little true dash (Own.xpub dash p1) [] pb p1 dash_fits (by decide)
  (fun b hb => (encode58_chars _ b hb).2.1) pb_buf (C110_expubkey_own_text false .little true dash p1 pb [] dash_fits (by decide) p1_buf pb_buf)

/-! ### Addresses -/
example := C110_base58_encoders dash .little h20 (aa 40) 39 dash_fits (by decide) (by decide) (by decide) (by decide)
example := C110_pubkey_own_text dash .little true [] h20 [] (aa 40) dash_fits (by decide +kernel) (by decide +kernel) (by decide +kernel) (by decide +kernel)
example := C110_script_own_text dash .little true [] h20 [] (aa 40) dash_fits (by decide +kernel) (by decide +kernel) (by decide +kernel) (by decide +kernel)
example : ¬ pubkey dash <+: script dash ++ h20 := by decide +kernel
example : script long ++ h20 = pubkey long ++ ([5#8] ++ h20) := by decide +kernel
example := C110_script_roundtrip_partial dash .little true [] h20 [] (aa 40) dash_fits (by decide +kernel) (by decide +kernel) (by decide +kernel)
  (by decide +kernel) (by decide +kernel)
example := C110_violated_script_as_pubkey long .little true [] h20 [] (aa 40) [5#8] long_fits (by decide +kernel) (by decide +kernel) (by decide +kernel)
  (by decide +kernel) (by decide +kernel)
example : ∃ mem : List Byte, trim58 (Own.base58 (pubkey dash) h20) = Own.base58 (pubkey dash) (mem.take h20.length) := by
  obtain ⟨mem, h, -⟩ := C110_pubkey_own_text dash .little true (List.replicate 128 0#8) h20 [] (aa 40) dash_fits (by decide +kernel) (by decide +kernel)
    (by decide +kernel) (by decide +kernel)
  exact ⟨mem, (C110_base58_address_sound dash .little true (List.replicate 128 0#8) _ [] (aa 40) _ dash_fits (by decide)
    (fun b hb => (encode58_chars _ b hb).2.1) List.length_replicate h).1 rfl⟩
theorem zeros_nul (p : List Byte) (h : 61#8 ∉ p) (n : Nat) : NulFirst (p ++ List.replicate (n + 1) 0#8) := ⟨p, List.replicate n 0#8, rfl, h⟩
example := C110_witness_own_text dash .little true (List.replicate 128 0#8) 0#8 h20 [] (aa 60) dash_fits (by decide) (by decide +kernel) (by decide +kernel)
  (by decide) (by decide +kernel) (by decide +kernel) (by decide +kernel) List.length_replicate
  (zeros_nul _ (by decide +kernel) 94) (by
    rw [show Base58CheckSpec.decode? (witness (Own.hrp dash) 0#8 h20) = none from by decide +kernel]; nofun) (by decide +kernel)
example := C110_violated_long_hrp long .little true (List.replicate 128 0#8) 0#8 h20 [] (aa 90) long_fits (by decide) (by decide +kernel) (by decide +kernel)
  (by decide) (by decide +kernel) (by decide +kernel) (by decide +kernel) List.length_replicate
  (zeros_nul _ (by decide +kernel) 94) (by
    rw [show Base58CheckSpec.decode? (witness (Own.hrp long) 0#8 h20) = none from by decide +kernel]; nofun) (by decide +kernel)
example : ∃ v D, Bech32Spec.Valid (witness (Own.hrp dash) 0#8 h20) (Own.hrp dash) (v :: D) := by
  obtain ⟨mem, h, -⟩ := C110_witness_own_text dash .little true (List.replicate 128 0#8) 0#8 h20 [] (aa 60) dash_fits (by decide) (by decide +kernel)
    (by decide +kernel) (by decide) (by decide +kernel) (by decide +kernel) (by decide +kernel) List.length_replicate
    (zeros_nul _ (by decide +kernel) 94) (by
      rw [show Base58CheckSpec.decode? (witness (Own.hrp dash) 0#8 h20) = none from by decide +kernel]; nofun) (by decide +kernel)
  rw [if_pos (by decide +kernel), if_pos rfl, if_pos (by decide +kernel)] at h
  obtain ⟨⟨v, D, hv, -⟩, -⟩ := C110_witness_address_sound dash .little true (List.replicate 128 0#8) (witness (Own.hrp dash) 0#8 h20) [] (aa 60) _ dash_fits
    (by decide) (by decide +kernel) List.length_replicate h (.inl rfl)
  exact ⟨v, D, hv⟩
/-- A chain that writes its human-readable part with a capital letter. -/
def capital : ChainParameters := { dash with bech32Hrp := cstr "Dash" ++ [0] }
theorem capital_fits : Fits capital := ⟨by decide, by decide, by decide, by decide, by decide⟩
example := C110_witness_v0_encoders capital false h20 (aa 60) 60 (by decide) (by decide)
example := C110_witness_unknown_encoder capital 1#8 h32 (aa 70) 70 (by decide) (by decide) (by decide +kernel) (by decide +kernel)
theorem capital_refused : addressDecode .little true (List.replicate 128 0#8) (witness (Own.hrp capital) 0#8 h20 ++ [0#8])
    (witness (Own.hrp capital) 0#8 h20).length (aa 60) 60 capital = .ok ⟨.bad, aa 60, 60⟩ := by decide +kernel
example := C110_violated_no_witness_address capital .little true (List.replicate 128 0#8) (witness (Own.hrp capital) 0#8 h20) [] (aa 60) _ capital_fits
  (by decide) (by decide +kernel) List.length_replicate (.inr (.inr ⟨68#8, by decide +kernel, .inl (by decide)⟩)) capital_refused
end
end Cases
