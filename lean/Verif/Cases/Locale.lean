import Verif.Props.Locale
import Verif.Cases.Inserted
import Verif.Cases.Machine
/-! Every theorem with hypotheses of `Props/Locale`, applied to concrete arguments that meet them. -/
namespace Cases
open Address AddressSpec Bech32
open Bech32Spec (Valid lower)

/-- A Turkish locale with the character set ISO 8859-9: the no-break space 0xA0 is a space, the lower case of `I` is 0xFD. -/
def turkish : Locale where
  isspace c := Base58Spec.isSpace c || c = 0xA0#8
  isupper c := (65 ≤ c.toNat && c.toNat ≤ 90) || (0xC0 ≤ c.toNat && c.toNat ≤ 0xDE && c.toNat != 0xD7)
  tolower c := if c = 73#8 then 0xFD#8 else if 65 ≤ c.toNat ∧ c.toNat ≤ 90 then c + 32#8
    else if 0xC0 ≤ c.toNat ∧ c.toNat ≤ 0xDE ∧ c.toNat ≠ 0xD7 then c + 32#8 else c

theorem turkish_lawful : turkish.Lawful where
  spaces := by decide +kernel
  alnum := by decide +kernel
  nul := by decide +kernel
  upper := by decide +kernel
theorem turkish_usual : turkish.Usual := by unfold Locale.Usual; decide +kernel

example := C100_base58_exact turkish turkish_lawful false .little false (cstr "2g") [] (aa 4) one32 2 5 kb pb mainnet

/-- "2g" is the letter `a`; between a no-break space and a blank it is so in both locales that know the former. -/
example := (C100_base58_same turkish ⟨turkish.isspace, turkish.isupper, id⟩ turkish_lawful
    ⟨turkish_lawful.spaces, turkish_lawful.alnum, turkish_lawful.nul, turkish_lawful.upper⟩ false .little false (0xA0#8 :: cstr "2g ") (cstr "xyz") (aa 4) one32 5
    kb pb mainnet (by decide +kernel)).1 [97, 0xAA, 0xAA, 0xAA] 1 [97, 0xAA, 0xAA, 0xAA] 1 (by decide +kernel) (by decide +kernel)
  (by decide) (by decide)
example := (C100_base58_accepted turkish turkish_lawful false .little true (cstr " 2g ") (cstr "xyz") (aa 4) one32 5
    kb pb mainnet (by decide +kernel)).1 [97, 0xAA, 0xAA, 0xAA] 1 (by decide +kernel) (by decide)
/-- A secret key as text. -/
example : ∃ t : List Byte, Localized.keyFromString turkish false .little true (t ++ [0]) t.length (aa 33) 5 mainnet =
    .ok ⟨true, over one32 (aa 33), 1⟩ := by
  exact ⟨_, (C100_base58_accepted turkish turkish_lawful false .little true (WifSpec.wif .main one32 true) [] (aa 4) (aa 33) 5
    kb pb mainnet (fun b hb => (encode58_chars _ b hb).2.1)).2.2.1 _ wif_one rfl⟩

/-- A no-break space before "2g" on a machine with unsigned characters. -/
example := C100_violated_blank turkish turkish_lawful false 0xA0#8 (cstr "2g") [] (aa 4) [97] (by decide) (by decide) (by decide) (by decide)
  (by decide +kernel) (by decide) (by decide)
example : Localized.fromBase58 turkish false (0xA0#8 :: cstr "2g" ++ [0]) 3 (aa 4) = .ok ([97, 0xAA, 0xAA, 0xAA], 1) ∧
    Base58.fromBase58 false (0xA0#8 :: cstr "2g" ++ [0]) 3 (aa 4) = .ok (aa 4, 0) := by decide +kernel

example := C100_bech32_partial turkish turkish_lawful (cstr "A12UEL5L") [] (aa 2) [] 2 (by decide) (by decide +kernel)

/-- A text in upper case with two `I`s in its prefix. -/
theorem valid_iji : Valid (cstr "IJI1PZR723UZE5") (cstr "iji") [1, 2, 3, 30] :=
  ⟨by decide, by decide, by decide, by decide, Bech32Spec.checksum (cstr "iji") [1, 2, 3, 30], by decide +kernel, by decide +kernel,
    by decide +kernel, by decide +kernel⟩
example := C100_violated_turkish turkish turkish_lawful turkish_usual (by decide) (cstr "IJI1PZR723UZE5") [] (aa 3) (aa 4) (cstr "iji")
  [1, 2, 3, 30] 3 valid_iji ⟨chr 'J', by decide, by decide⟩ (by decide) (by decide) (by decide) (by decide) (by decide) (by decide)
example : Localized.bech32Decode turkish (cstr "IJI1PZR723UZE5" ++ [0]) 14 (aa 3) 3 (aa 4) = .ok ⟨-5, [0xFD, 0x6A, 0xFD], 3, [1, 2, 3, 30]⟩ ∧
    Bech32.decode (cstr "IJI1PZR723UZE5" ++ [0]) 14 (aa 3) 3 (aa 4) = .ok ⟨4, cstr "iji", 3, [1, 2, 3, 30]⟩ := by decide +kernel

example := C100_address turkish turkish_lawful turkish_usual (by decide) .main .little true (List.replicate 128 0#8) (cstr "BC1PW5YSV34T5P") []
  (aa 12) 12 (by decide +kernel)
example : ∃ r, Localized.addressDecode turkish .little true (List.replicate 128 0#8) (cstr "bc1pw5ysv34t5p" ++ 0#8 :: []) (cstr "bc1pw5ysv34t5p").length (aa 12) (aa 12).length Network.main.param = .ok r ∧
    r.kind = .witnessUnknown := by
  obtain ⟨r, h, hk⟩ : ∃ r, addressDecode .little true (List.replicate 128 0#8) (cstr "bc1pw5ysv34t5p" ++ 0#8 :: []) (cstr "bc1pw5ysv34t5p").length (aa 12) (aa 12).length Network.main.param = .ok r ∧
      r.kind = .witnessUnknown := by
    cases h : addressDecode .little true (List.replicate 128 0#8) (cstr "bc1pw5ysv34t5p" ++ 0#8 :: []) (cstr "bc1pw5ysv34t5p").length (aa 12) (aa 12).length Network.main.param with
    | ub => exact absurd h (by decide +kernel)
    | abort => exact absurd h (by decide +kernel)
    | ok r =>
      refine ⟨r, rfl, ?_⟩
      have : readAs (.ok r) = some (.witnessUnknown, [1, 0x75, 9]) := by rw [← h]; decide +kernel
      exact (Prod.mk.inj (Option.some.inj this)).1
  exact ⟨r, C100_address_accepted turkish turkish_lawful turkish_usual (by decide) .main .little true (List.replicate 128 0#8)
    (cstr "bc1pw5ysv34t5p") [] (aa 12) r (by decide) (by simp) h (by rw [hk]; decide), hk⟩
end Cases
