import Verif.Props.Work
import Verif.Cases.Leakage

/-! The theorems of `Verif.Props.LeakageRead` and `Verif.Props.Work` applied to concrete data. -/
namespace Cases
open Endian Secp256k1 WordSpec AddressSpec WorkSpec

/-! ### C101 -/

/-- Two texts of 4 hexadecimal digits: what is seen differs in the look-ups only. -/
example : ∃ t t' r r', Leakage.fromHex ⟨"str", 0, cstr "00ff"⟩ 4 "buf" (aa 2) = .ok r t ∧
    Leakage.fromHex ⟨"str", 0, cstr "ABcd"⟩ 4 "buf" (aa 3) = .ok r' t' ∧ Leakage.besides "HEX_MAP" t = Leakage.besides "HEX_MAP" t' := by
  obtain ⟨s, h⟩ := C101_hex_partial 4
  obtain ⟨t, h1, e1⟩ := h (cstr "00ff") (aa 2) (by decide) (by decide +kernel) (by decide +kernel)
  obtain ⟨t', h2, e2⟩ := h (cstr "ABcd") (aa 3) (by decide) (by decide +kernel) (by decide +kernel)
  exact ⟨t, t', _, _, h1, h2, e1.trans e2.symm⟩

/-- What is seen of the text "6f". -/
example : Leakage.fromHex ⟨"str", 0, cstr "6f"⟩ 2 "buf" (aa 1) = .ok ([0x6f#8], 1)
    [.branch true, .load "str" 0 1, .load "HEX_MAP" 54 1, .load "str" 1 1, .load "HEX_MAP" 102 1, .branch false, .branch false,
      .store "buf" 0 1, .branch false] := by decide +kernel

/-- Two different pieces of data look different while their texts are read. -/
example (t : List Leakage.Ev) (h : Leakage.fromHex ⟨"str", 0, cstr "6162"⟩ 4 "buf" (aa 2) = .ok (cstr "ab", 2) t)
    (h' : Leakage.fromHex ⟨"str", 0, cstr "6163"⟩ 4 "buf" (aa 2) = .ok (cstr "ac", 2) t) : False :=
  absurd (C101_violated_hex _ _ _ _ _ _ _ _ t h h') (by decide)

example : ∃ f : List Leakage.Ev → List Byte, ∃ t, Leakage.fromHex ⟨"str", 0, cstr "6162"⟩ 4 "buf" (aa 2) = .ok (cstr "ab", 2) t ∧ f t = cstr "ab" := by
  obtain ⟨f, h⟩ := C101_violated_recover_hex
  have := h (cstr "6162") (aa 2) 4 (by decide) (by decide +kernel)
  rw [show HexSpec.decode ((cstr "6162").take 4) = cstr "ab" by decide +kernel, show over (cstr "ab") (aa 2) = cstr "ab" by decide +kernel] at this
  exact ⟨f, this⟩

/-- The two texts are "2g" and "2h" of the bytes 0x61 and 0x62. -/
example (t : List Leakage.Ev) (h : Leakage.fromBase58 true ⟨"str", 0, cstr "2g" ++ [0#8]⟩ 2 "buf" (aa 2) = .ok ([0x61#8, 0xAA#8], 1) t)
    (h' : Leakage.fromBase58 true ⟨"str", 0, cstr "2h" ++ [0#8]⟩ 2 "buf" (aa 2) = .ok ([0x62#8, 0xAA#8], 1) t) : False :=
  absurd (C101_violated_base58 true _ _ _ _ _ _ _ t h h') (by decide)

theorem e58 : Base58Spec.encode (cstr "a") = cstr "2g" := by decide +kernel

example : ∃ f : List Leakage.Ev → List Byte, ∃ t, Leakage.fromBase58 true ⟨"str", 0, cstr "2g" ++ [0#8]⟩ 2 "buf" (aa 2) =
    .ok (over (cstr "a") (aa 2), 1) t ∧ f t = cstr "a" := by
  obtain ⟨f, h⟩ := C101_violated_recover_base58 true 2
  have := h (cstr "a") (aa 2) [] (by rw [e58]; rfl) (by decide) (by decide +kernel)
  rw [e58] at this
  exact ⟨f, this⟩

/-- The keys 1 and 0xAA…AA are told apart; the first one is read. -/
example : ∃ f : List Leakage.Ev → List Byte, ∃ t, Leakage.keyFromString false .little true
      ⟨"str", 0, WifSpec.wif .main one32 true ++ [0#8]⟩ (WifSpec.wif .main one32 true).length (aa 33) 5 Network.main.param =
      .ok ⟨true, over one32 (aa 33), 1⟩ t ∧ f t = one32 := by
  obtain ⟨f, h⟩ := C101_violated_recover_wif false true .main (WifSpec.wif .main one32 true).length
  exact ⟨f, h .little one32 (aa 33) [] true 5 (by decide +kernel) (by decide +kernel) rfl⟩

example (x y : List Byte) (t : List Leakage.Ev)
    (h : Leakage.keyFromString false .little true ⟨"str", 0, x⟩ 52 (aa 33) 5 Network.main.param = .ok ⟨true, over one32 (aa 33), 1⟩ t)
    (h' : Leakage.keyFromString false .little true ⟨"str", 0, y⟩ 52 (aa 33) 5 Network.main.param = .ok ⟨true, aa 33, 1⟩ t) : False :=
  absurd ((C101_violated_wif false .little .little true x y _ _ 52 5 5 .main _ _ t h h').2 rfl).1 (by decide +kernel)

example : ∃ f : List Leakage.Ev → Exkey.ExKey, ∃ t, Leakage.exkeyFromString false .little true
      ⟨"str", 0, xprv .main m1 ++ [0#8]⟩ (xprv .main m1).length kb Network.main.param = .ok (m1, true) t ∧ f t = m1 := by
  obtain ⟨f, h⟩ := C101_violated_recover_exkey false true .main (xprv .main m1).length
  exact ⟨f, h .little m1 kb [] m1_buf kb_buf rfl⟩

example (x y : List Byte) (t : List Leakage.Ev)
    (h : Leakage.exkeyFromString false .little true ⟨"str", 0, x⟩ 111 kb Network.main.param = .ok (m1, true) t)
    (h' : Leakage.exkeyFromString false .little true ⟨"str", 0, y⟩ 111 kb Network.main.param = .ok (kb, true) t) : m1 = kb :=
  (C101_violated_exkey false .little .little true x y 111 kb kb .main _ _ t kb_buf kb_buf h h').2 rfl

/-! ### C102 -/

example := (C102_hashes .little (cstr "abc") (aa 32) 3 (by decide) (by decide)).1 (by decide +kernel)
example := (C102_hmac .little (cstr "Jefe") (cstr "what") (aa 64) 4 4 (by decide) (by decide) (by decide) (by decide)).2 (by decide +kernel)
example := C102_hash256_d64 .little (aa 64) (aa 128) 2 (by decide +kernel) (by decide +kernel)
example := C102_bip32_hash .little (aa 32) (aa 32) (aa 64) 1#32 0#8 (by decide +kernel) (by decide +kernel) (by decide +kernel)
example := C102_exkey_init .little kb (aa 64) kb_buf (by decide +kernel)
example := C102_hex (cstr "abc") (aa 6) (cstr "00ffx") (aa 2) 5 false (by decide +kernel) (by decide) (by decide +kernel)
example := C102_to_base58 (cstr "abc") (aa 10) (by decide) (by decide +kernel)
example := C102_from_base58 true (cstr " 2g ") [] (aa 2) (by decide) (by decide) (by decide) (by decide +kernel)

/-- One zero byte and three others: at least 18, in fact more. -/
example (r : List Byte × Nat) (t : List Leakage.Ev) (h : Leakage.toBase58 ⟨"buf", 0, List.replicate 1 0#8 ++ cstr "abc"⟩ 4 (aa 10) = .ok r t) :
    18 ≤ work t :=
  C102_to_base58_least 1 (cstr "abc") (aa 10) (by decide) r t h

example : (match Leakage.toBase58 ⟨"buf", 0, [0#8] ++ cstr "abc"⟩ 4 (aa 10) with
    | .ok _ t => work t
    | _ => 0) = 91 := by decide +kernel

/-- A one and three digits: at least 12, in fact more. -/
example (r : List Byte × Nat) (t : List Leakage.Ev)
    (h : Leakage.fromBase58 true ⟨"str", 0, List.replicate 1 (chr '1') ++ cstr "zzz" ++ [0#8]⟩ 4 "buf" (aa 10) = .ok r t) :
    36 ≤ 3 * work t :=
  C102_from_base58_least true 1 (cstr "zzz") [] (aa 10) r t (by decide) (by decide) h

example : (match Leakage.fromBase58 true ⟨"str", 0, cstr "1zzz" ++ [0#8]⟩ 4 "buf" (aa 10) with
    | .ok _ t => work t
    | _ => 0) = 87 := by decide +kernel

example := C102_key_to_string .little .main one32 (aa 80) true (by decide +kernel) (by decide +kernel)
example := C102_exkey_to_string .little .main m1 (aa 120) m1_buf (by decide +kernel)
example := C102_key_from_string false .little true .main (cstr " 13DV5niCGP ") [] (aa 32) 0 (by decide) r13 (by decide +kernel) (by decide +kernel)
example := C102_exkey_from_string false .little true .main (xprv .main m1) [] kb xprv_nz xprv_readable.1 kb_buf xprv_readable.2
end Cases
