import Verif.Props.LetterCase
import Verif.Lemmas.UpperAddress
/-! Property theorem C109 for upper-case addresses, as used in QR codes. -/
open Bech32Spec Address AddressSpec

namespace LetterCase

theorem no_clash (net : Network) {v b : Byte} {n : Nat} (hv : v.toNat < 32) (h : n ≤ 90) (hn : net.hrp.length + 2 ≤ n)
    (hm : net = .main → n ≠ 35 ∧ n ≠ 50) (hr : net = .reg → n ≠ 33) (hb : b ≠ 0#8)
    (hc : clashUpper net.hrp v (n - net.hrp.length - 2) b.toNat = true) : b ≠ net.pubkeyVersion ∧ b ≠ net.scriptVersion := by
  have ev : BitVec.ofNat 8 v.toNat = v := by simp
  cases net with
  | main =>
    refine ⟨hb, ?_⟩
    rintro rfl
    have hn' : 2 + 2 ≤ n := hn
    have hc' : clashUpper hrpB v (n - 2 - 2) 5 = true := hc
    obtain ⟨h1, h2⟩ := hm rfl
    have := List.all_eq_true.mp (List.all_eq_true.mp clash_upper_main v.toNat (List.mem_range.mpr hv)) (n - 2 - 2)
      (List.mem_range.mpr (by omega))
    rw [ev, hc', Bool.or_eq_true, Bool.or_eq_true, Nat.beq_eq, Nat.beq_eq] at this
    rcases this with (h | h) | h
    · cases h
    · omega
    · omega
  | test =>
    have hn' : 2 + 2 ≤ n := hn
    have hc' : clashUpper hrpT v (n - 2 - 2) b.toNat = true := hc
    have := List.all_eq_true.mp (List.all_eq_true.mp clash_upper_test v.toNat (List.mem_range.mpr hv)) (n - 2 - 2)
      (List.mem_range.mpr (by omega))
    rw [ev, Bool.and_eq_true, Bool.not_eq_true', Bool.not_eq_true'] at this
    constructor
    · rintro rfl
      have e : clashUpper hrpT v (n - 2 - 2) 0x6F = true := hc'
      rw [this.1] at e; cases e
    · rintro rfl
      have e : clashUpper hrpT v (n - 2 - 2) 0xC4 = true := hc'
      rw [this.2] at e; cases e
  | reg =>
    have hn' : 4 + 2 ≤ n := hn
    have hc' : clashUpper hrpR v (n - 4 - 2) b.toNat = true := hc
    have h33 := hr rfl
    have := List.all_eq_true.mp (List.all_eq_true.mp clash_upper_reg v.toNat (List.mem_range.mpr hv)) (n - 4 - 2)
      (List.mem_range.mpr (by omega))
    rw [ev, Bool.or_eq_true, Nat.beq_eq, Bool.and_eq_true, Bool.not_eq_true', Bool.not_eq_true'] at this
    have this := this.resolve_right (by omega)
    constructor
    · rintro rfl
      have e : clashUpper hrpR v (n - 4 - 2) 0x6F = true := hc'
      rw [this.1] at e; cases e
    · rintro rfl
      have e : clashUpper hrpR v (n - 4 - 2) 0xC4 = true := hc'
      rw [this.2] at e; cases e

end LetterCase

/-- C109, upper-case addresses (as in QR codes): the upper-case form of every witness address that the decoder reads is read as the same
address, on every network and for every text length but 35 and 50 (mainnet) and 33 (regtest); 42 and 62 (regtest: 44 and 64) are those of
version 0.  Missing: texts of those three lengths, where a Base58Check text with a matching four-byte checksum may exist. -/
theorem C109_upper_address_partial (net : Network) (host : Host) (cs : Bool) (stack s s' post out : List Byte) (r : Decoded)
    (h : s.map lower = s'.map lower) (hst : stack.length = 128) (h0 : ∀ b ∈ s, b ≠ 0#8) (hup : ∀ c ∈ s', ¬ isLower c)
    (hm : net = .main → s'.length ≠ 35 ∧ s'.length ≠ 50) (hrg : net = .reg → s'.length ≠ 33)
    (hr : addressDecode host cs stack (s ++ 0#8 :: post) s.length out out.length net.param = .ok r)
    (hk : r.kind = .witnessV0Keyhash ∨ r.kind = .witnessV0Scripthash ∨ r.kind = .witnessUnknown) :
    ∃ r', addressDecode host cs stack (s' ++ 0#8 :: post) s'.length out out.length net.param = .ok r' ∧
      r'.kind = r.kind ∧ r'.outSize = r.outSize ∧ r'.out.take r'.outSize = r.out.take r.outSize := by
  have hc' : ¬ ((∃ c ∈ s', isUpper c) ∧ ∃ c ∈ s', isLower c) := fun ⟨_, c, hc, hl⟩ => hup c hc hl
  obtain ⟨D, hv, hD, _, r', h1, h2⟩ := LetterCase.address_case net host cs stack s s' post out r h hst hc' hr h0 hk
  obtain ⟨p1, p2, p3⟩ := net_pub net
  obtain ⟨q1, q2, q3⟩ := net_script net
  refine ⟨r', h1, ?_⟩
  rcases h2 with ⟨c, p, h2, h3⟩ | ⟨h2, h3, h4⟩
  · exfalso
    rw [Base58CheckSpec.decode?] at h2
    cases hd : Base58Spec.decode? s' with
    | none => rw [hd] at h2; cases h2
    | some W =>
      rw [hd, Option.bind_some] at h2
      have hW := Base58Check.check?_some h2
      rw [List.cons_append] at hW
      subst hW
      obtain ⟨v, hv32, hb0, hlen, hcl⟩ := LetterCase.upper_clash hv hD hup (by cases net <;> decide) hd
      have := LetterCase.no_clash net hv32 hv.length hlen hm hrg hb0 hcl
      rcases h3 with ⟨_, h3⟩ | ⟨_, h3⟩
      · rw [p3, List.cons_prefix_cons] at h3
        exact this.1 h3.1.symm
      · rw [q3, List.cons_prefix_cons] at h3
        exact this.2 h3.1.symm
  · refine ⟨h2, h3, h4 ?_⟩
    rcases hk with hk | hk | hk <;> (rw [hk]; decide)
