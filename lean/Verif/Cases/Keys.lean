import Verif.Props.Bip32
import Verif.Props.Exkey
import Verif.Props.Der
import Verif.Props.Ecdsa
import Verif.Cases.Address
/-!
Every theorem of `Props/Bip32`, `Props/Exkey`, `Props/Der` and `Props/Ecdsa` that has hypotheses, applied to concrete arguments that
meet them.
-/
namespace Cases
open Key SecpLib Secp256k1 WordSpec Endian Bip32Spec Exkey AddressSpec Base58Check DerSpec

/-- Coordinates of the base point of secp256k1. -/
def gx : Nat := 0x79BE667EF9DCBBAC55A06295CE870B07029BFCDB2DCE28D959F2815B16F81798
def gy : Nat := 0x483ADA7726A3C4655DA4FBFC0E1108A8FD17B448A68554199C47D08FFB10D4B8
theorem g_on : OnCurve (some (gx, gy)) := by decide +kernel
theorem one_valid : ValidKey one32 := by decide +kernel

/-- An extended key (the master key of test vector 1 of BIP 32), one with the key 1, an extended public key and objects that were never
set. -/
def m1 : ExKey := ⟨⟨0#8, 0#32, 0#32, vector1Chain⟩, vector1Key⟩
def p1 : ExPubkey := ⟨⟨3#8, 5#32, 7#32, vector1Chain⟩, compressed gx gy⟩
def kb : ExKey := ⟨⟨0xAA#8, 0xAAAAAAAA#32, 0xAAAAAAAA#32, aa 32⟩, aa 32⟩
def pb : ExPubkey := ⟨⟨0xAA#8, 0xAAAAAAAA#32, 0xAAAAAAAA#32, aa 32⟩, aa 33⟩
theorem m1_wf : WfPriv m1 := by rw [WfPriv]; decide +kernel
theorem m1_buf : BufPriv m1 := by rw [BufPriv]; decide +kernel
theorem p1_buf : BufPub p1 := by rw [BufPub]; decide +kernel
theorem kb_buf : BufPriv kb := by rw [BufPriv]; decide
theorem pb_buf : BufPub pb := by rw [BufPub]; decide

/-! ### Bip32 -/
example := C52_key_derive false .little vector1Key vector1Chain (aa 32) (aa 33) 0x80000000#32 m1_wf.1 (by decide +kernel) (by decide) (by decide)
example := C52_pubkey_derive false .little gx gy vector1Chain (aa 33) (aa 32) 7#32 g_on (by decide) (by decide +kernel) (by decide) (by decide)
example := C52_exkey_derive false .little m1 kb 0x80000000#32 0x57c24334#32 m1_wf kb_buf
example := C52_expubkey_derive false .little ⟨3#8, 5#32, 7#32, vector1Chain⟩ gx gy pb 7#32 9#32 g_on (by decide +kernel) (by decide) pb_buf
example := C51_derivation_commutes false .little m1 kb pb pb pb 7#32 9#32 m1_wf kb_buf pb_buf pb_buf pb_buf (by decide)
example := C51_paths_commute false .little kb pb pb pb [(7#32, 9#32), (0#32, 1#32)] kb_buf pb_buf pb_buf pb_buf m1 m1_wf (by decide)
example := C60_keyids false .little vector1Key (aa 20) (aa 23) true m1_wf.1 (by decide) (by decide)
example := C60_fingerprints false .little vector1Key m1_wf.1
example := C61_master_key .little kb vector1Seed kb_buf (by decide)

/-- No point has the x coordinate 5. -/
theorem no5 (x y : Nat) (h : OnCurve (some (x, y))) : 0x02#8 :: beBytes 32 5 ≠ compressed x y := by
  intro he
  have h1 := (C67_pubkey_roundtrip false x y (aa 33) true h (by decide))
  obtain ⟨enc, h2, h3, -, h4⟩ := h1
  rw [if_pos rfl] at h2
  rw [h2, ← he, show pubkeyDecode false (0x02#8 :: beBytes 32 5) (0x02#8 :: beBytes 32 5).length = .ok (none, false) from by decide +kernel] at h4
  cases h4

example := C52_pubkey_derive_bad false .little (0x02#8 :: beBytes 32 5) vector1Chain (aa 33) (aa 32) 7#32 (by decide +kernel) (by decide)
  no5 (.inr (.inl rfl))

/-! ### Exkey -/
example := C53_encode_layout .little m1 p1 (aa 75) m1_buf p1_buf (by decide)
example := C53_roundtrip .little .big m1 kb p1 pb (aa 75) m1_buf kb_buf p1_buf pb_buf (by decide)
example := C53_decode_faithful .little (aa 74) [1#8] kb pb kb_buf pb_buf (by decide)
example := C54_to_string .little .main m1 p1 (aa 120) m1_buf p1_buf (by decide +kernel)
example := C54_roundtrip false .little .big true .test m1 kb p1 pb (aa 120) (cstr "xyz") m1_buf kb_buf p1_buf pb_buf (by decide +kernel)
example := C42_ext_networks false .little true .main .test m1 kb p1 pb [] m1_buf kb_buf p1_buf pb_buf (by simp)
example := C63_valid_partial false .little true .main m1 kb m1_wf kb_buf
example := C63_violated_invalid_public false .little true .main pb pb_buf
example := C63_violated_invalid_secret false .little true .main kb kb_buf
example := C63_violated_pad_byte false .little true .main m1 kb m1_buf kb_buf
theorem h13 (W : List Byte) (h : Base58Spec.decode? (cstr " 13DV5niCGP ") = some W) : W.length ≤ 82 := by
  have := h13DV W h; omega
theorem r13 : Base58Spec.Readable true (cstr " 13DV5niCGP ") :=
  ⟨by rw [Base58Spec.TooLong]; decide +kernel, fun h => not_negative (by decide) h.2⟩
theorem r2x : ¬ Base58Spec.Readable true (cstr "2x" ++ [0xC3#8, 0xA9#8]) :=
  fun h => h.2 ⟨rfl, cstr "2x", 0xC3#8, [0xA9#8], rfl, by decide, by decide, by decide +kernel⟩
example := (C54_exkey_from_string_spec_partial false .little true .main (cstr " 13DV5niCGP ") [] kb (by decide) r13 kb_buf h13).2
  (by rw [show Base58CheckSpec.decode? (cstr " 13DV5niCGP ") = some [0, 1, 2, 3] by decide +kernel]
      rintro ⟨p, h, hp⟩
      have := congrArg List.length (Option.some.inj h)
      rw [List.length_append, hp] at this
      exact absurd this (by change 4 = 4 + 74 → False; decide))
example := (C54_expubkey_from_string_spec_partial false .little true .main (cstr " 13DV5niCGP ") [] pb (by decide) r13 pb_buf h13).2
  (by rw [show Base58CheckSpec.decode? (cstr " 13DV5niCGP ") = some [0, 1, 2, 3] by decide +kernel]
      rintro ⟨p, h, hp⟩
      have := congrArg List.length (Option.some.inj h)
      rw [List.length_append, hp] at this
      exact absurd this (by change 4 = 4 + 74 → False; decide))

/-- The text of the master key is one that is read (so the first half of the specification is not empty either). -/
theorem xprv_nz : ∀ b ∈ xprv .main m1, b ≠ 0#8 := fun b hb => (encode58_chars _ b hb).2.1
theorem xprv_readable : Base58Spec.Readable true (xprv .main m1) ∧ ∀ W, Base58Spec.decode? (xprv .main m1) = some W → W.length ≤ 82 :=
  Classical.byContradiction fun h => by
    have h1 := C54_exkey_violated_undefined false .little true .main _ [] kb xprv_nz h
    rw [C63_valid_partial false .little true .main m1 kb m1_wf kb_buf] at h1
    cases h1
example := (C54_exkey_from_string_spec_partial false .little true .main (xprv .main m1) [] kb xprv_nz xprv_readable.1 kb_buf xprv_readable.2).1
  (privBytes m1) (by rw [Base58CheckSpec.decode?, xprv, Base58CheckSpec.encode, decode_encode58, Option.bind_some, check?_append])
  (by decide +kernel)
example := C54_exkey_undefined_iff_partial false .little true .main (cstr " 13DV5niCGP ") [] kb (by decide) kb_buf
example := C54_expubkey_undefined_iff_partial false .little true .main (cstr " 13DV5niCGP ") [] pb (by decide) pb_buf
example := C54_exkey_violated_undefined false .little true .main (cstr "2x" ++ [0xC3#8, 0xA9#8]) [] kb (by decide) (fun h => r2x h.1)
example := C54_expubkey_violated_undefined false .little true .main (cstr "2x" ++ [0xC3#8, 0xA9#8]) [] pb (by decide) (fun h => r2x h.1)
example := C54_exkey_violated_overrun true .little true .main (List.replicate 83 (chr '1')) [] (List.replicate 83 0#8) kb
    (by decide +kernel) (by decide +kernel) (by decide)
example := C54_expubkey_violated_overrun true .little true .main (List.replicate 83 (chr '1')) [] (List.replicate 83 0#8) pb
    (by decide +kernel) (by decide +kernel) (by decide)
example := C54_exkey_from_string_sound true .little true .main (xprv .main m1) [] kb m1 (fun b hb => (encode58_chars _ b hb).2.1) kb_buf
  (C63_valid_partial true .little true .main m1 kb m1_wf kb_buf)
example := C54_expubkey_from_string_sound true .little true .main (xpub .main p1) [] pb p1 (fun b hb => (encode58_chars _ b hb).2.1) pb_buf
  ((expubkey_from_string_text true .little true .main .main p1 pb [] p1_buf pb_buf).1 rfl)

/-! ### Der -/
example := C47_key_encode false vector1Key (aa 280) true m1_wf.1 (by decide +kernel)
example := C47_der_roundtrip false vector1Key (aa 280) (aa 33) (cstr "more") false m1_wf.1 (by decide +kernel) (by decide)
example := C47_invalid_key (beBytes 32 n) (aa 280) true (by decide +kernel) (by decide +kernel)
example := C48_key_decode_safe [0x30#8, 0x81#8, 0x07#8, 0x02#8, 0x01#8] (aa 33) (by decide)
example := C48_key_decode_spec [0x30#8, 0x81#8, 0x07#8, 0x02#8, 0x01#8] (aa 33) (by decide)
example := C49_signature_decode_spec [0x30#8, 0x06#8, 0x02#8, 0x01#8, 0x01#8, 0x02#8, 0x02#8, 0x01#8] (by decide)
example := C50_signature_decode_safe [0x30#8, 0x06#8, 0x02#8, 0x01#8, 0x01#8, 0x02#8, 0x02#8, 0x01#8] (by decide)
example := C49_strict (n - 1) 5 (by decide +kernel) (by decide) [1#8, 2#8] (by decide +kernel)

/-! ### Ecdsa -/

/-- The signature that the first theorems are applied to: of `satoshiHash` with the key 1. -/
def sg : Sig := ⟨23099462533675068734832077512104673167886718929082312971308796891289591527055,
  31129929380412946476399321443717707017926376749990381528678365869628811336387⟩
theorem one_valid' : ValidKey (beBytes 32 1) := by decide +kernel
theorem hash_len : satoshiHash.length = 32 := by decide +kernel
theorem signed : ∃ sf fuel, keySign false .little sf fuel (beBytes 32 1) satoshiHash = .ok (some sg) := by
  obtain ⟨sf, fuel, h⟩ := C69_sign_complete false .little _ _ one_valid' hash_len _ _ satoshi_lowR
  exact ⟨sf, fuel, h sf fuel (le_refl _) (le_refl _)⟩
example := signed.elim fun sf h => h.elim fun fuel h => C55_sign_low_r false .little sf fuel _ _ sg one_valid' hash_len h
example := signed.elim fun sf h => h.elim fun fuel h => C65_sign_verify false .little sf fuel _ _ sg one_valid' hash_len h
example := signed.elim fun sf h => h.elim fun fuel h => C65_sign_send_verify false .little sf fuel _ _ (aa 72) (aa 65) (cstr "more") sg false
  one_valid' hash_len (by decide) (by decide) (by decide) h
example := signed.elim fun sf h => h.elim fun fuel h => C69_sign_deterministic false false .little .little sf fuel sf fuel _ _ sg sg
  one_valid' hash_len h h
example := C69_sign_sound false .little 1 1 _ _ one_valid' hash_len
example := C69_sign_complete true .big _ _ one_valid' hash_len _ _ satoshi_lowR
example := C66_verify_exact (gx, gy) satoshiHash sg g_on hash_len (by decide +kernel) (by decide +kernel)
example := C66_both_forms (gx, gy) satoshiHash sg.r sg.s g_on hash_len (by decide +kernel) (by decide +kernel) (by decide +kernel)
example := C66_zero_refused (gx, gy) satoshiHash ⟨0, 5⟩ g_on hash_len (by decide +kernel) (by decide +kernel) (.inl rfl)
example := C67_pubkey_roundtrip false gx gy (aa 33) true g_on (by decide)
example := C67_pubkey_decode_exact false (hybrid gx gy) (gx, gy) (by decide +kernel)
example := C67_pubkey_decode_total false (0x02#8 :: beBytes 32 5) (by decide +kernel)
example := C68_signature_roundtrip sg (aa 72) (cstr "more") (by decide +kernel) (by decide +kernel) (by decide) (by decide)

end Cases
