import Verif.Props.Rewritten
import Verif.Cases.Keys
/-! Every theorem with hypotheses of `Props/Rewritten`, applied to concrete arguments that meet them. -/
namespace Cases
open Key AddressSpec WifSpec Base58Check Exkey

example := C91_hex (cstr "12aB") [9, 9, 9] [0x12, 0xAB, 9] (List.replicate 5 7) 2 (by decide) (by decide +kernel) (by decide) (by decide)
example := C91_base64_urlsafe_partial (cstr "Zm-_Zg") (List.replicate 5 9) [0x66, 0x6f, 0xbf, 0x66, 9] (List.replicate 7 0) 4 (by decide) (by decide +kernel)
  (by decide) (by decide)
example := C91_base64_partial (cstr "Zm9vYg==") (List.replicate 5 9) [0x66, 0x6f, 0x6f, 0x62, 9] (List.replicate 9 0) 4 4 (by decide +kernel) (by decide)
  (by decide +kernel) (by decide) (by decide)
example := C91_base32_partial true (cstr "MZxw6") (cstr "xyz") [0, 0, 0, 9] (List.replicate 9 0) (by decide +kernel) (by decide) (by decide) (by decide)
/-- Both sides of the equivalences occur. -/
example : Base64Spec.Ends true (cstr "Zm-_Zg") ∧ ¬ Base64Spec.Ends true (cstr "Zm-_Zh") ∧ ¬ Base64Spec.Ends true (cstr "Zm-_Z") ∧
    Base32Spec.Ends (cstr "MZxw6") ∧ ¬ Base32Spec.Ends (cstr "MZxw7") := by
  refine ⟨⟨by decide, ?_⟩, fun h => ?_, fun h => h.1 (by decide), ?_, fun h => ?_⟩
  · intro c v hc hv
    rw [show (cstr "Zm-_Zg").getLast? = some (chr 'g') from by decide] at hc
    rw [← Option.some.inj hc, show Base64Spec.value? true (chr 'g') = some 32 from by decide] at hv
    rw [← Option.some.inj hv, BaseN.SpareBitsZero]; decide
  · have := h.2 (chr 'h') 33 (by decide) (by decide)
    rw [BaseN.SpareBitsZero] at this; revert this; decide
  · intro c v hc hv
    rw [show (cstr "MZxw6").getLast? = some (chr '6') from by decide] at hc
    rw [← Option.some.inj hc, show Base32Spec.value? (chr '6') = some 30 from by decide] at hv
    rw [← Option.some.inj hv, BaseN.SpareBitsZero]; decide
  · have := h (chr '7') 31 (by decide) (by decide)
    rw [BaseN.SpareBitsZero] at this; revert this; decide

example := C91_wif false .little .big true .main (cstr "KwDiBf89QgGbjEhKnhXJuH7LrciVrZi3qYjgd9M7rFU73sVHnoWn") [] (aa 33) (aa 64) 5
  ⟨true, one32 ++ aa 1, 1⟩ (by decide) (by decide) (by
    obtain ⟨s, n, h1, -, h2⟩ := C45_wif_roundtrip false .little true .main one32 (aa 64) [] (aa 33) true 5 (by decide) (by decide) (by decide)
    have h3 := C45_key_to_string .little .main one32 (aa 64) true (by decide) (by decide)
    rw [h3] at h1
    obtain ⟨h1, h4⟩ := Prod.mk.inj (Res.ok.inj h1)
    rw [← h1, ← h4, BtcHash.take_over rfl,
      show wif .main one32 true = cstr "KwDiBf89QgGbjEhKnhXJuH7LrciVrZi3qYjgd9M7rFU73sVHnoWn" from by decide +kernel, if_pos rfl,
      show over one32 (aa 33) = one32 ++ aa 1 from by decide +kernel] at h2
    exact h2) rfl (by decide)
example := C91_xpub true .little .big true .main (xpub .main p1) [] (aa 120) pb p1 (fun b hb => (encode58_chars _ b hb).2.1) pb_buf
  ((expubkey_from_string_text true .little true .main .main p1 pb [] p1_buf pb_buf).1 rfl) (by decide)
example := C91_xprv_partial true .little .big true .main (xprv .main m1) [] (aa 120) kb m1 (fun b hb => (encode58_chars _ b hb).2.1) kb_buf
  (C63_valid_partial true .little true .main m1 kb m1_wf kb_buf) (by decide)
open Address in
example : ∃ s mem, addressDecode .little true junk (s ++ [0#8]) s.length (aa 28) 28 Network.main.param = .ok ⟨.pubkey, mem, 20⟩ ∧
    toAddressPubkey .little (mem.take 20) 20 (aa 36) 36 Network.main.param = .ok (over (trim58 s) (aa 36), (trim58 s).length) := by
  obtain ⟨s, h1, h2⟩ := C38_pubkey_roundtrip .main .little true junk h20 (aa 36) [] (aa 28) (by decide +kernel) (by decide +kernel) (by decide +kernel)
  have h3 := (C41_base58_encoders .main .little h20 (aa 36) 36 (by decide +kernel) (by decide +kernel))
  have hl : s.length ≤ 36 := by
    rw [show (aa 36).length = 36 from by decide +kernel] at h1
    rw [h3.1, if_neg (by decide +kernel)] at h1
    have := (Prod.mk.inj (Res.ok.inj h1)).2
    rw [← this]; exact h3.2.2 _ |>.2
  obtain ⟨mem, h4, h5⟩ := h2 (by
    rw [show (aa 28).length = 28 from by decide +kernel, fromBase58CheckLength]
    simp only [Base58.fromBase58Length]; omega)
  have h0 : ∀ b ∈ s, b ≠ 0#8 := by
    rw [show (aa 36).length = 36 from by decide +kernel] at h1
    rw [h3.1, if_neg (by decide +kernel)] at h1
    obtain ⟨e1, e2⟩ := Prod.mk.inj (Res.ok.inj h1)
    have : s = base58 Network.main.pubkeyVersion h20 := by
      have := congrArg (List.take s.length) e1
      rw [BtcHash.take_over rfl, ← e2, BtcHash.take_over rfl] at this
      exact this.symm
    rw [this]
    exact fun b hb => (encode58_chars _ b hb).2.1
  have h6 := (C91_base58_address .main .little true junk s [] (aa 28) (aa 36) _ h0 (by decide +kernel) h4
    (show toBase58CheckLength h20.length 1 ≤ (aa 36).length by decide +kernel)).1 rfl
  exact ⟨s, mem, h4, h6⟩
end Cases
