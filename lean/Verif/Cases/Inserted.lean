import Verif.Props.Inserted
import Verif.Cases.Texts
/-! Every theorem with hypotheses of `Props/Inserted`, applied to concrete arguments that meet them. -/
namespace Cases
open Address AddressSpec Bech32
open Bech32Spec (Valid lower)

/-- Well-behaved memory behind the values: zeros. -/
theorem nul_zero (s H : List Byte) (D : List Byte) (h : Valid s H D) : NulFirst (D.tail ++ (List.replicate 128 0#8).drop D.length) := by
  have hl : D.length < 128 := by
    have := congrArg List.length (valid_lower_eq h).1
    have h90 := h.length
    rw [List.length_map, Bech32.encode_length] at this
    omega
  refine ⟨D.tail, List.replicate (127 - D.length) 0#8, ?_, ?_⟩
  · rw [List.drop_replicate, show 128 - D.length = (127 - D.length) + 1 by omega, List.replicate_succ]
  · intro hm
    have := (valid_lower_eq h).2 _ (List.mem_of_mem_tail hm)
    revert this; decide

/-- A text that ends with `qp`. -/
theorem valid_qp : Valid (cstr "bc1q9zpgraqp") (cstr "bc") [0, 5, 2] := by
  have := valid_encode (H := cstr "bc") (D := [0, 5, 2]) (by decide) (by decide) (by decide) (by decide) (by decide)
  rwa [show Bech32Spec.encode (cstr "bc") [0, 5, 2] = cstr "bc1q9zpgraqp" from by decide +kernel] at this

example := C99_last_characters_partial (cstr "bc1q9zpgra") (cstr "p") [0] [0] (aa 2) (aa 2) (aa 5) (aa 5) (chr 'q') 2 2
  ⟨2, cstr "bc", 2, [0, 5] ++ aa 3⟩ ⟨3, cstr "bc", 2, [0, 5, 2] ++ aa 2⟩
  (by decide) (by decide) (by decide) (by decide) (by decide) (by decide) (by decide) (by decide +kernel) (by decide +kernel) (by decide) (by decide)
example := C99_violated_inserted (cstr "bc1q9zpgraq") (cstr "xyz") (aa 2) (aa 8) (cstr "bc") [0, 5, 2] 2 4 valid_qp (by decide) (by decide)
  (by decide) (by decide) (by decide)
example := C99_violated_removed (cstr "bc1q9zpgra") (cstr "xyz") (aa 2) (aa 8) (cstr "bc") [0, 5, 2] 2 1 valid_qp (by decide) (by decide)
  (by decide) (by decide)
example : decode (cstr "bc1q9zpgraqqqqp" ++ [0]) 15 (aa 2) 2 (aa 7) = .ok ⟨6, cstr "bc", 2, [0, 5, 2, 1, 8, 3, 0xAA]⟩ ∧
    decode (cstr "bc1q9zpgrap" ++ [0]) 11 (aa 2) 2 (aa 7) = .ok ⟨2, cstr "bc", 2, [0, 5] ++ aa 5⟩ := by decide +kernel

/-- `5` doubled before a final `p`. -/
example := (C99_address_partial .main .little true (aa 128) (cstr "bc1pw5ysv34t5") (cstr "p") (cstr "xyz") (aa 20) (chr '5') 1#8 [0x75, 9]
  ⟨.bad, aa 20, 20⟩ (by decide) (by decide) (by decide) (by decide +kernel) (by intro h; exact absurd h.1 (by decide))).1
  (by decide +kernel) (by decide) 
example := (C99_address_partial .main .little true (aa 128) (cstr "bc1pw5ysv34t") (cstr "p") (cstr "xyz") (aa 20) (chr '5') 1#8 [0x75, 9]
  ⟨.bad, aa 20, 20⟩ (by decide) (by decide) (by decide) (by decide +kernel) (by intro h; exact absurd h.1 (by decide))).2
  (by decide +kernel)

/-- A key hash whose address ends with `qp`. -/
def hashQp : List Byte := (List.range 20).map fun j => BitVec.ofNat 8 (7 * j + 40)
example := (C99_version_0 .main .little true (List.replicate 128 0#8) (cstr "bc1q9qhnv02yfdf9jcr8de6hequ2jxvflf4dawsgq") [] (aa 60) hashQp 1
  ⟨.witnessV0Keyhash, hashQp ++ aa 40, 20⟩ (.inl (by decide +kernel)) (by decide +kernel) (by decide)).1 (by decide +kernel) (by decide)
  (nul_zero _ _) (by decide +kernel) (.inl rfl)
example := (C99_version_0 .main .little true (List.replicate 128 0#8) (cstr "bc1q9qhnv02yfdf9jcr8de6hequ2jxvflf4dawsg") [] (aa 60) hashQp 1
  ⟨.bad, hashQp.take 19 ++ aa 41, 19⟩ (.inl (by decide +kernel)) (by decide +kernel) (by decide)).2 (by decide +kernel) (by decide)
  (nul_zero _ _) (by decide +kernel)

/-- An address of version 1 that becomes another one. -/
example := C99_violated_address .main .little true (List.replicate 128 0#8) (cstr "bc1pw5ysv34t5") [] (aa 20) [0x75, 9] 1#8 1 5 (by decide)
  (by decide) (by decide) (by decide +kernel) (by decide +kernel) (by decide) (by decide) (by decide) (by decide +kernel) (nul_zero _ _)
  (by decide)
/-- What a decoded address says: its kind and the bytes it announces. -/
def readAs : Res Decoded → Option (Kind × List Byte)
  | .ok r => some (r.kind, r.out.take r.outSize)
  | _ => none
example : readAs (addressDecode .little true (List.replicate 128 0) (cstr "bc1pw5ysv34t5p" ++ [0]) 14 (aa 12) 12 mainnet) =
      some (.witnessUnknown, [1, 0x75, 9]) ∧
    readAs (addressDecode .little true (List.replicate 128 0) (cstr "bc1pw5ysv34t5qp" ++ [0]) 15 (aa 12) 12 mainnet) =
      some (.witnessUnknown, [1, 0x75, 9, 0x06]) := by decide +kernel
end Cases
