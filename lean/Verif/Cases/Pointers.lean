import Verif.Props.Pointers
import Verif.Cases.Codec
import Verif.Cases.WorkCodec
/-! Applications of the theorems of `Props/Pointers`. -/
namespace Cases
section
open Pointers Address

/-- "abc1" in an array of five bytes: `pos + 7` is five bytes beyond its end. -/
theorem abc1_leaves : Leaves (cstr "abc1") [] :=
  ⟨by decide +kernel, by decide +kernel, by decide, cstr "abc", [], by decide +kernel, by decide, by decide +kernel, by decide +kernel⟩
/-- With five bytes behind the terminator nothing leaves the object. -/
theorem abc1_stays : ¬ Leaves (cstr "abc1") (aa 5) := by
  rintro ⟨_, _, _, a, d, he, _, _, h⟩
  have := congrArg List.length he
  simp [cstr, aa] at this h
  omega

example : Pointers.decode (cstr "abc1" ++ [0]) 4 (aa 4) 4 (aa 4) = .ub ∧
    Bech32.decode (cstr "abc1" ++ [0]) 4 (aa 4) 4 (aa 4) = .ok ⟨-2, aa 4, 4, aa 4⟩ := by decide +kernel
example := (C108_bech32_decode (cstr "abc1") [] (aa 4) (aa 4) 4).1 abc1_leaves
example := (C108_bech32_decode (cstr "abc1") (aa 5) (aa 4) (aa 4) 4).2 abc1_stays
example := C108_bech32_spare (cstr "abc1") (aa 5) (aa 4) (aa 4) 4 (.inl (by decide))
example := C108_violated_short_data (cstr "bc") (cstr "qpzr") (aa 4) (aa 4) 4 (by decide +kernel) (by decide +kernel) (by decide +kernel)
  (by decide +kernel) (by decide +kernel) (by decide +kernel)
example := C108_address_decode .little true (aa 128) (cstr "abc1") (aa 5) (aa 64) 64 (AddressSpec.Network.param .main) abc1_stays
example := C108_address_leaves .little true (aa 128) (cstr "abc1") [] (aa 64) 64 (AddressSpec.Network.param .main) ⟨.bad, 0x64#8 :: 5#8 :: 0xDE#8 :: aa 61, 64⟩ abc1_leaves
  (by decide +kernel) (by decide +kernel)
example : ∃ r, Pointers.addressDecode .little true (List.replicate 128 0#8) (cstr "bc1pw5ysv34t5p" ++ 0#8 :: []) (cstr "bc1pw5ysv34t5p").length
    (aa 12) 12 (AddressSpec.Network.param .main) = .ok r ∧ r.kind = .witnessUnknown := by
  obtain ⟨r, h, hk⟩ : ∃ r, Address.addressDecode .little true (List.replicate 128 0#8) (cstr "bc1pw5ysv34t5p" ++ 0#8 :: [])
      (cstr "bc1pw5ysv34t5p").length (aa 12) 12 (AddressSpec.Network.param .main) = .ok r ∧ r.kind = .witnessUnknown := by
    cases h : Address.addressDecode .little true (List.replicate 128 0#8) (cstr "bc1pw5ysv34t5p" ++ 0#8 :: [])
        (cstr "bc1pw5ysv34t5p").length (aa 12) 12 (AddressSpec.Network.param .main) with
    | ok r =>
      refine ⟨r, rfl, ?_⟩
      have e : (match Address.addressDecode .little true (List.replicate 128 0#8) (cstr "bc1pw5ysv34t5p" ++ 0#8 :: [])
        (cstr "bc1pw5ysv34t5p").length (aa 12) 12 (AddressSpec.Network.param .main) with | .ok r => r.kind | _ => .bad) = Kind.witnessUnknown := by
        decide +kernel
      rw [h] at e
      exact e
    | ub => exact absurd h (by decide +kernel)
    | abort => exact absurd h (by decide +kernel)
  exact ⟨r, C108_address_accepted .little true _ _ [] (aa 12) 12 _ r (by rw [hk]; decide) h, hk⟩
end
end Cases
