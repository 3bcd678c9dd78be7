import Verif.Lemmas.Base58Check

/-! A size bound for `base58_check.c`; the property theorems C18 and C19 are in `Props/Base58Total.lean`. -/
open Base58Check

theorem encodeCheck_length_le (p : List Byte) :
    (Base58CheckSpec.encode p).length ≤ Base58.toBase58Length (p.length + 4) := by
  have := encode58_length_le (p ++ Base58CheckSpec.checksum p)
  rwa [List.length_append, checksum_length] at this
