import Verif.Props.InPlaceBech32
/-! The theorems of `Props/InPlaceBech32` applied to concrete arguments that meet their hypotheses. -/
namespace Cases
open Bech32

/-- The values of `A12UEL5L`-like text, written over the text and two bytes behind its beginning. -/
example := C105_decode_onto_text (cstr "xxA1QQA12UEL5L" ++ List.replicate 6 0#8) 2 12 (List.replicate 5 0#8) 5 2 (by decide) (by decide)
example := C105_decode_onto_text (cstr "xxA1QQA12UEL5L" ++ List.replicate 6 0#8) 2 12 (List.replicate 5 0#8) 5 4 (by decide) (by decide)

/-- The values three bytes behind the beginning of the text of prefix `bc`, and in front of it. -/
example := C105_encode_over_values (cstr "bc") 2 (List.replicate 40 7#8) 3 20 0 (by decide) (by decide)
example := C105_encode_over_values (cstr "bc") 2 (List.replicate 60 7#8) 3 20 23 (by decide) (by decide)

/-- The first of these calls succeeds. -/
example : ∃ s, InPlace.bech32Encode (cstr "bc") 2 (List.replicate 40 7#8) 3 20 0 = .ok s := by
  refine ⟨_, rfl⟩

end Cases
