import Verif.Spec.BaseN
/-! What a base32 decoder that works in groups of eight characters looks at. -/
namespace Base32Spec

/-- An incomplete last group of these numbers of characters stands for 1, 2, 3 or 4 bytes (RFC 4648 section 6). -/
def usableTail (k : Nat) : Prop := k = 2 ∨ k = 4 ∨ k = 5 ∨ k = 7

/-- A decoder that takes the text `t` in groups of eight, stops at the first group with an illegal character and skips an unusable
incomplete last group, meets a character of 0x80 or more. -/
def MeetsNegative (legal : BitVec 8 → Prop) (t : List (BitVec 8)) : Prop :=
  ∃ i c, t[i]? = some c ∧ 128 ≤ c.toNat ∧ (∀ k d, k < i / 8 * 8 → t[k]? = some d → legal d) ∧
    (i / 8 * 8 + 8 ≤ t.length ∨ usableTail (t.length % 8))

end Base32Spec
