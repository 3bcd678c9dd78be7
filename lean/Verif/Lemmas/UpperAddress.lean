import Verif.Lemmas.AddressRange
/-! When an upper-case witness text can also be read as base58 with the version byte of an address (for C109). -/
open Bech32Spec Address

namespace LetterCase

def upper (c : Byte) : Byte := if 97 ≤ c.toNat ∧ c.toNat ≤ 122 then c - 32#8 else c

theorem upper_lower : ∀ c : Byte, ¬ isLower c → upper (lower c) = c := by decide +kernel

/-- Whether the upper-case form of a witness text with `r` characters behind its version can be read as base58 with leading byte `b`. -/
def clashUpper (hrp : List Byte) (v : Byte) (r b : Nat) : Bool :=
  ((lead hrp v).map upper).all (fun c => (Base58Spec.value? c).isSome) &&
    mayStart (Positional.value 58 (((lead hrp v).map upper).filterMap Base58Spec.value?)) r b

theorem clash_upper_main : ((List.range 32).all fun v => (List.range 87).all fun r =>
    !clashUpper hrpB (BitVec.ofNat 8 v) r 5 || Nat.beq r 31 || Nat.beq r 46) = true := by decide +kernel
theorem clash_upper_test : ((List.range 32).all fun v => (List.range 87).all fun r =>
    !clashUpper hrpT (BitVec.ofNat 8 v) r 0x6F && !clashUpper hrpT (BitVec.ofNat 8 v) r 0xC4) = true := by decide +kernel
theorem clash_upper_reg : ((List.range 32).all fun v => (List.range 85).all fun r =>
    !clashUpper hrpR (BitVec.ofNat 8 v) r 0x6F && !clashUpper hrpR (BitVec.ofNat 8 v) r 0xC4 || Nat.beq r 27) = true := by decide +kernel

theorem upper_clash {hrp s D W : List Byte} {b : Byte} (hv : Valid s hrp D) (hD : D ≠ []) (hup : ∀ c ∈ s, ¬ isLower c)
    (h1 : (hrp.map upper).head? ≠ some 49#8)
    (h : Base58Spec.decode? s = some (b :: W)) :
    ∃ v : Byte, v.toNat < 32 ∧ b ≠ 0#8 ∧ hrp.length + 2 ≤ s.length ∧ clashUpper hrp v (s.length - hrp.length - 2) b.toNat = true := by
  obtain ⟨S, -, hlt, h3, -⟩ := hv.parts
  obtain ⟨v, G, rfl⟩ := List.exists_cons_of_ne_nil hD
  have hs : s = (lead hrp v).map upper ++ ((G ++ S).map char).map upper := by
    have e := congrArg (List.map upper) h3
    rw [List.map_map] at e
    have e2 : s.map (upper ∘ lower) = s := by
      have e3 : s.map (upper ∘ lower) = s.map id := List.map_congr_left fun c hc => upper_lower c (hup c hc)
      rw [e3, List.map_id]
    rw [e2] at e
    rw [e]
    simp [lead]
  have hl := congrArg List.length hs
  have h4 := top_range ((lead hrp v).map upper) (((G ++ S).map char).map upper) W b
    (by rw [← hs]; exact fun c hc => not_space c (hv.range c hc))
    (by
      have hne := hv.hrp_ne
      cases hrp with
      | nil => exact absurd rfl hne
      | cons c r => simpa [lead] using h1) (by simp [lead]) (by rw [← hs]; exact h)
  obtain ⟨h5, h6, h7⟩ := h4
  refine ⟨v, hlt v (by simp), h6, ?_, ?_⟩
  · rw [hl, List.length_append, List.length_map, lead]; simp
  · have : s.length - hrp.length - 2 = (((G ++ S).map char).map upper).length := by
      rw [hl, List.length_append, List.length_map (as := lead hrp v), lead, List.length_append]
      simp only [List.length_cons, List.length_nil]
      omega
    rw [clashUpper, this, h7, Bool.and_true, List.all_eq_true]
    exact h5

end LetterCase
