import Verif.Props.Address
import Verif.Props.Bech32Errors
/-! C90: a mistyped witness address is not taken for another witness address. -/
open Address AddressSpec
open Bech32Spec (lower differences)

/-- The kinds of witness address. -/
def Address.Kind.isWitness (k : Address.Kind) : Prop := k = .witnessV0Keyhash ∨ k = .witnessV0Scripthash ∨ k = .witnessUnknown

/-- Only valid Bech32 texts with the network's human-readable part are taken for witness addresses. -/
theorem Address.witness_kind_valid (net : Network) (host : Host) (cs : Bool) (stack s post out : List Byte) (r : Decoded)
    (h0 : ∀ b ∈ s, b ≠ 0#8) (hst : stack.length = 128)
    (h : addressDecode host cs stack (s ++ 0#8 :: post) s.length out out.length net.param = .ok r) (hk : r.kind.isWitness) :
    ∃ D, Bech32Spec.Valid s net.hrp D := by
  obtain ⟨p1, p2, p3⟩ := net_pub net
  obtain ⟨q1, q2, q3⟩ := net_script net
  obtain ⟨n1, n2, n4, n5, n6, n7, n8⟩ := net_hrp net
  have hbech : ∀ out' sz, decodeBech32 cs stack (s ++ 0#8 :: post) s.length out' sz net.param = .ok r → ∃ D, Bech32Spec.Valid s net.hrp D := by
    intro out' sz he
    rcases decodeBech32_any s (0#8 :: post) cs stack out' sz net.param hst (by simp) n1 with hb | ⟨D, hD, -, -⟩
    · rw [hb] at he
      rw [← Res.ok.inj he] at hk
      rcases hk with hk | hk | hk <;> cases hk
    · rw [n2] at hD; exact ⟨D, hD⟩
  by_cases hc : Base58Check.fromBase58CheckLength s.length ≤ out.length
  · by_cases hr : Base58Spec.Readable cs s ∧ ∀ W, Base58Spec.decode? s = some W → W.length ≤ out.length
    · rw [addressDecode_eq host cs stack s post out out.length net.param h0 hr.1 hc hr.2 p1 q1] at h
      split at h
      · simp only at h
        split at h
        · rw [← Res.ok.inj h] at hk
          rcases hk with hk | hk | hk <;> cases hk
        · split at h
          · rw [← Res.ok.inj h] at hk
            rcases hk with hk | hk | hk <;> cases hk
          · exact hbech _ _ h
      · exact hbech _ _ h
    · rw [addressDecode_ub net host cs stack s post out h0 hc hr] at h
      cases h
  · rw [addressDecode, if_pos (by omega)] at h
    rw [← Res.ok.inj h] at hk
    rcases hk with hk | hk | hk <;> cases hk

/-- C90 (four errors). Replace at least one and at most four characters of a witness address (a change of case is none); whatever
else `fingera_btc_address_decode` makes of the text, it does not take it for a witness address. -/
theorem C90_four_errors (net : Network) (host : Host) (cs : Bool) (stack s post out : List Byte) (v : Byte) (prog : List Byte)
    (r : Decoded) (hv : v.toNat ≤ 16) (h40 : prog.length ≤ 40) (h0 : ∀ b ∈ s, b ≠ 0#8) (hst : stack.length = 128)
    (hlen : s.length = (witness net.hrp v prog).length) (hne : s.map lower ≠ (witness net.hrp v prog).map lower)
    (hd : differences (s.map lower) ((witness net.hrp v prog).map lower) ≤ 4)
    (h : addressDecode host cs stack (s ++ 0#8 :: post) s.length out out.length net.param = .ok r) : ¬ r.kind.isWitness := by
  intro hk
  obtain ⟨D, hD⟩ := witness_kind_valid net host cs stack s post out r h0 hst h hk
  exact hne (valid_distance hD (witness_valid net v prog hv h40) hlen hd)

/-- C90 (bursts). The same for any errors within six consecutive characters behind the human-readable part and the separator. -/
theorem C90_burst (net : Network) (host : Host) (cs : Bool) (stack p x y q post out : List Byte) (v : Byte) (prog : List Byte)
    (r : Decoded) (hv : v.toNat ≤ 16) (h40 : prog.length ≤ 40) (h0 : ∀ b ∈ p ++ y ++ q, b ≠ 0#8) (hst : stack.length = 128)
    (hw : witness net.hrp v prog = p ++ x ++ q) (hp : net.hrp.length < p.length) (hlen : x.length = y.length) (h6 : x.length ≤ 6)
    (hne : x.map lower ≠ y.map lower)
    (h : addressDecode host cs stack ((p ++ y ++ q) ++ 0#8 :: post) (p ++ y ++ q).length out out.length net.param = .ok r) :
    ¬ r.kind.isWitness := by
  intro hk
  obtain ⟨D, hD⟩ := witness_kind_valid net host cs stack _ post out r h0 hst h hk
  have hv := witness_valid net v prog hv h40
  rw [hw] at hv
  have l1 := (congrArg List.length (valid_lower_eq hv).1)
  have l2 := (congrArg List.length (valid_lower_eq hD).1)
  rw [List.length_map, Bech32.encode_length] at l1 l2
  have hl : (v :: Base32Spec.encodeRaw prog).length = D.length := by
    simp only [List.length_append] at l1 l2; omega
  have d1 := C35_bech32_complete _ _ _ [] net.hrp (List.replicate (p ++ x ++ q).length 0#8) net.hrp.length hv (Nat.le_refl _) (Nat.le_refl _)
    (by rw [List.length_replicate]; omega)
  have d2 := C35_bech32_complete _ _ _ [] net.hrp (List.replicate (p ++ y ++ q).length 0#8) net.hrp.length hD (Nat.le_refl _) (Nat.le_refl _)
    (by rw [List.length_replicate]; omega)
  exact C36_burst_detected p x y q [0#8] [0#8] net.hrp net.hrp (List.replicate (p ++ x ++ q).length 0#8)
    (List.replicate (p ++ y ++ q).length 0#8) net.hrp.length net.hrp.length _ _
    hlen h6 hne (by simp) (by simp) (Nat.le_refl _) (Nat.le_refl _) (by rw [List.length_replicate]; omega)
    (by rw [List.length_replicate]; omega) d1 d2 hp rfl ⟨Int.natCast_nonneg _, Int.natCast_nonneg _⟩
