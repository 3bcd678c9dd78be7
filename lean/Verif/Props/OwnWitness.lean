import Verif.Props.OwnAddress
/-! Property theorems C110: chain parameters of the user's own, which texts are witness addresses at all (`src/btc/address.c`). -/
open Address AddressSpec Own

namespace Own
open Bech32Spec

/-- The reading is that of a witness address. -/
def Witness (k : Kind) : Prop := k = .witnessV0Keyhash ∨ k = .witnessV0Scripthash ∨ k = .witnessUnknown

theorem lower_visible : ∀ c : Byte, 33 ≤ c.toNat → c.toNat ≤ 126 →
    33 ≤ (lower c).toNat ∧ (lower c).toNat ≤ 126 ∧ ¬ isUpper (lower c) := by decide +kernel

theorem valid_hrp {s H D : List Byte} (hv : Valid s H D) : ∀ c ∈ H, 33 ≤ c.toNat ∧ c.toNat ≤ 126 ∧ ¬ isUpper c := by
  obtain ⟨a, d, k, hs, ha, -⟩ := valid_split hv
  intro c hc
  rw [← ha] at hc
  obtain ⟨x, hx, rfl⟩ := List.mem_map.mp hc
  have := hv.range x (by rw [hs]; simp [hx])
  exact lower_visible x this.1 this.2

theorem witness_version (cs : Bool) (v : Byte) (D rest out : List Byte) (n sz : Nat) (r : Decoded)
    (h : decodeWitness cs (v :: D ++ rest) n out sz = .ok r) (hk : Witness r.kind) :
    (v = 0#8 → r.kind ≠ .witnessUnknown) ∧ (v ≠ 0#8 → r.kind = .witnessUnknown ∧ v.toNat ≤ 16 ∧ r.out.head? = some v) := by
  rw [decodeWitness] at h
  cases h1 : Base32.fromBase32RawLength (n - 1) with
  | ub => rw [h1] at h; cases h
  | abort => rw [h1] at h; cases h
  | ok need =>
    rw [h1, Res.ok_bind] at h
    split at h
    · have h2 : rd (v :: D ++ rest) 0 = .ok v := by simp [rd]
      rw [h2, Res.ok_bind] at h
      by_cases hv : v = 0#8
      · refine ⟨fun _ => ?_, fun hn => absurd hv hn⟩
        rw [if_pos hv] at h
        cases h3 : Base32.fromBase32Raw cs ((v :: D ++ rest).drop 1) (n - 1) out with
        | ub => rw [h3] at h; cases h
        | abort => rw [h3] at h; cases h
        | ok x =>
          rw [h3, Res.ok_bind] at h
          simp only [Res.pure_eq] at h
          split at h
          · rw [← Res.ok.inj h]; nofun
          · split at h <;> (rw [← Res.ok.inj h]; nofun)
      · refine ⟨fun hn => absurd hn hv, fun _ => ?_⟩
        rw [if_neg hv] at h
        cases h3 : wr out 0 v with
        | ub => rw [h3] at h; cases h
        | abort => rw [h3] at h; cases h
        | ok o =>
          rw [h3, Res.ok_bind] at h
          cases h4 : Base32.fromBase32Raw cs ((v :: D ++ rest).drop 1) (n - 1) (o.drop 1) with
          | ub => rw [h4] at h; cases h
          | abort => rw [h4] at h; cases h
          | ok x =>
            rw [h4, Res.ok_bind] at h
            simp only [Res.pure_eq] at h
            split at h
            · rw [← Res.ok.inj h] at hk
              rcases hk with hk | hk | hk <;> cases hk
            · rename_i hcond
              rw [← Res.ok.inj h]
              refine ⟨rfl, by omega, ?_⟩
              cases out with
              | nil => simp [wr] at h3
              | cons a t =>
                have : o = v :: t := by
                  simp [wr] at h3
                  exact h3.symm
                rw [this]; rfl
    · rw [← Res.ok.inj h] at hk
      rcases hk with hk | hk | hk <;> cases hk

end Own

/-- C110 (what is read as a witness address). Under any parameters, whatever text is read as a witness address is a valid Bech32 string
(BIP 173) with the human-readable part of the parameters; its first data value is the version: 0 if a version-0 kind is reported, 1 to 16
and the first byte of the result otherwise.  This needs a human-readable part of 1 to 16 visible characters without upper-case letters. -/
theorem C110_witness_address_sound (param : ChainParameters) (host : Host) (cs : Bool) (stack s post out : List Byte) (r : Decoded)
    (hf : Fits param) (hh : param.bech32HrpSize ≤ param.bech32Hrp.length) (h0 : ∀ b ∈ s, b ≠ 0#8) (hst : stack.length = 128)
    (h : addressDecode host cs stack (s ++ 0#8 :: post) s.length out out.length param = .ok r)
    (hk : r.kind = .witnessV0Keyhash ∨ r.kind = .witnessV0Scripthash ∨ r.kind = .witnessUnknown) :
    (∃ v D, Bech32Spec.Valid s (Own.hrp param) (v :: D) ∧
      (v = 0#8 → r.kind = .witnessV0Keyhash ∨ r.kind = .witnessV0Scripthash) ∧
      (v ≠ 0#8 → r.kind = .witnessUnknown ∧ v.toNat ≤ 16 ∧ r.out.head? = some v)) ∧
    1 ≤ (Own.hrp param).length ∧ (Own.hrp param).length ≤ 16 ∧
    ∀ c ∈ Own.hrp param, 33 ≤ c.toNat ∧ c.toNat ≤ 126 ∧ ¬ Bech32Spec.isUpper c := by
  have hbech : ∀ out' sz, decodeBech32 cs stack (s ++ 0#8 :: post) s.length out' sz param = .ok r →
      (∃ v D, Bech32Spec.Valid s (Own.hrp param) (v :: D) ∧
      (v = 0#8 → r.kind = .witnessV0Keyhash ∨ r.kind = .witnessV0Scripthash) ∧
      (v ≠ 0#8 → r.kind = .witnessUnknown ∧ v.toNat ≤ 16 ∧ r.out.head? = some v)) ∧
    1 ≤ (Own.hrp param).length ∧ (Own.hrp param).length ≤ 16 ∧
    ∀ c ∈ Own.hrp param, 33 ≤ c.toNat ∧ c.toNat ≤ 126 ∧ ¬ Bech32Spec.isUpper c := by
    intro out' sz he
    rcases decodeBech32_any s (0#8 :: post) cs stack out' sz param hst (by simp) hh with hb | ⟨D, hD, hne, hb⟩
    · rw [hb] at he
      rw [← Res.ok.inj he] at hk
      rcases hk with hk | hk | hk <;> cases hk
    · have hD' : Bech32Spec.Valid s (Own.hrp param) D := hD
      by_cases h16 : (Own.hrp param).length ≤ 16
      · refine ⟨?_, ?_, h16, valid_hrp hD'⟩
        · rw [hb] at he
          cases D with
          | nil => exact absurd rfl hne
          | cons v D =>
            obtain ⟨w1, w2⟩ := witness_version cs v D _ out' _ sz r he hk
            refine ⟨v, D, hD', fun hv => ?_, w2⟩
            rcases hk with hk | hk | hk
            · exact .inl hk
            · exact .inr hk
            · exact absurd hk (w1 hv)
        · exact List.length_pos_iff.mpr hD'.hrp_ne
      · rw [decodeBech32, Own.decode_long_hrp hD' post (List.replicate 16 0xAA#8) 16 _ (by omega), Res.ok_bind,
          if_pos (Or.inl (show (-3 : Int) < 1 by decide))] at he
        rw [← Res.ok.inj he] at hk
        rcases hk with hk | hk | hk <;> cases hk
  by_cases hc : ¬ Base58Check.fromBase58CheckLength s.length ≤ out.length
  · rw [addressDecode, if_pos (by omega)] at h
    rw [← Res.ok.inj h] at hk
    rcases hk with hk | hk | hk <;> cases hk
  rw [not_not] at hc
  have hr : Base58Spec.Readable cs s ∧ ∀ W, Base58Spec.decode? s = some W → W.length ≤ out.length := by
    by_contra hno
    rw [addressDecode, if_neg (by omega), (Base58Check.fromBase58Check_ub_iff host cs s post out h0).mpr hno] at h
    cases h
  rw [addressDecode_eq host cs stack s post out out.length param h0 hr.1 hc hr.2 hf.pubkey hf.script] at h
  split at h
  · simp only [] at h
    split at h
    · rw [← Res.ok.inj h] at hk
      rcases hk with hk | hk | hk <;> cases hk
    · split at h
      · rw [← Res.ok.inj h] at hk
        rcases hk with hk | hk | hk <;> cases hk
      · exact hbech _ _ h
  · exact hbech _ _ h

/-- C110 is violated by the code: with a human-readable part that contains an upper-case letter or a character outside 33..126, that is
empty or that has more than 16 characters, no text whatever is read as a witness address – and the encoders write one without complaint
(`C110_witness_v0_encoders`, `C110_witness_unknown_encoder`). -/
theorem C110_violated_no_witness_address (param : ChainParameters) (host : Host) (cs : Bool) (stack s post out : List Byte) (r : Decoded)
    (hf : Fits param) (hh : param.bech32HrpSize ≤ param.bech32Hrp.length) (h0 : ∀ b ∈ s, b ≠ 0#8) (hst : stack.length = 128)
    (hbad : Own.hrp param = [] ∨ 16 < (Own.hrp param).length ∨
      ∃ c ∈ Own.hrp param, Bech32Spec.isUpper c ∨ c.toNat < 33 ∨ 126 < c.toNat)
    (h : addressDecode host cs stack (s ++ 0#8 :: post) s.length out out.length param = .ok r) :
    r.kind ≠ .witnessV0Keyhash ∧ r.kind ≠ .witnessV0Scripthash ∧ r.kind ≠ .witnessUnknown := by
  have key : ¬ (r.kind = .witnessV0Keyhash ∨ r.kind = .witnessV0Scripthash ∨ r.kind = .witnessUnknown) := by
    intro hk
    obtain ⟨-, h1, h2, h3⟩ := C110_witness_address_sound param host cs stack s post out r hf hh h0 hst h hk
    rcases hbad with hb | hb | ⟨c, hc, hb⟩
    · rw [hb] at h1; simp at h1
    · omega
    · obtain ⟨g1, g2, g3⟩ := h3 c hc
      rcases hb with hb | hb | hb
      · exact g3 hb
      · omega
      · omega
  exact ⟨fun e => key (.inl e), fun e => key (.inr (.inl e)), fun e => key (.inr (.inr e))⟩

/-- C110 (writing, witness version 0). With any human-readable part, suitable or not: 0 and nothing written exactly when `out_size` is
too small; otherwise the BIP 173 text (of whatever length) and its length. A program of another size is stopped by `assert`, or gives 0. -/
theorem C110_witness_v0_encoders (param : ChainParameters) (nd : Bool) (prog out : List Byte) (outSize : Nat)
    (hh : param.bech32HrpSize ≤ param.bech32Hrp.length) (ho : outSize ≤ out.length) :
    (toAddressWitnessV0Keyhash nd prog prog.length out outSize param =
      if prog.length = 20 then
        .ok (if outSize < (witness (Own.hrp param) 0#8 prog).length then (out, 0)
          else (over (witness (Own.hrp param) 0#8 prog) out, (witness (Own.hrp param) 0#8 prog).length))
      else if nd then .ok (out, 0) else .abort) ∧
    (toAddressWitnessV0Scripthash nd prog prog.length out outSize param =
      if prog.length = 32 then
        .ok (if outSize < (witness (Own.hrp param) 0#8 prog).length then (out, 0)
          else (over (witness (Own.hrp param) 0#8 prog) out, (witness (Own.hrp param) 0#8 prog).length))
      else if nd then .ok (out, 0) else .abort) := by
  constructor
  · rw [toAddressWitnessV0Keyhash]
    by_cases h : prog.length = 20
    · have := witnessEncode_eq (List.replicate 64 0xAA#8) 0#8 prog out outSize param (by decide)
        (by rw [h]; decide) hh ho
      rw [if_pos h, if_neg (by simpa using h), this, show assertNd nd (prog.length == 20) = .ok () from by
        rw [h]; cases nd <;> rfl]
      rfl
    · have hb : (prog.length == 20) = false := by simpa using h
      rw [if_neg h, hb]
      cases nd
      · rfl
      · simp [assertNd, h]
  · rw [toAddressWitnessV0Scripthash]
    by_cases h : prog.length = 32
    · have := witnessEncode_eq (List.replicate 64 0xAA#8) 0#8 prog out outSize param (by decide)
        (by rw [h]; decide) hh ho
      rw [if_pos h, if_neg (by simpa using h), this, show assertNd nd (prog.length == 32) = .ok () from by
        rw [h]; cases nd <;> rfl]
      rfl
    · have hb : (prog.length == 32) = false := by simpa using h
      rw [if_neg h, hb]
      cases nd
      · rfl
      · simp [assertNd, h]

/-- C110 (writing, other witness versions). -/
theorem C110_witness_unknown_encoder (param : ChainParameters) (v : Byte) (prog out : List Byte) (outSize : Nat)
    (hh : param.bech32HrpSize ≤ param.bech32Hrp.length) (ho : outSize ≤ out.length) (hl : 2 ≤ prog.length) (hu : prog.length ≤ 40) :
    toAddressWitnessUnknown (v :: prog) (v :: prog).length out outSize param =
      .ok (if 1 ≤ v.toNat ∧ v.toNat ≤ 16 ∧ (witness (Own.hrp param) v prog).length ≤ outSize
        then (over (witness (Own.hrp param) v prog) out, (witness (Own.hrp param) v prog).length) else (out, 0)) := by
  rw [toAddressWitnessUnknown, if_neg (by rw [List.length_cons]; omega)]
  simp only [rd, List.getElem?_cons_zero, Res.ok_bind, List.drop_succ_cons, List.drop_zero,
    List.length_cons, Nat.add_sub_cancel]
  by_cases hv : v.toNat < 1 ∨ v.toNat > 16
  · rw [if_pos hv, if_neg (by omega)]; rfl
  · have := witnessEncode_eq (List.replicate 128 0xAA#8) v prog out outSize param (by omega)
      (by rw [List.length_replicate]; omega) hh ho
    rw [if_neg hv]
    refine this.trans (congrArg Res.ok ?_)
    by_cases hc : outSize < (witness (Own.hrp param) v prog).length
    · rw [if_pos (show outSize < (witness (param.bech32Hrp.take param.bech32HrpSize) v prog).length from hc), if_neg (by omega)]
    · rw [if_neg (show ¬ outSize < (witness (param.bech32Hrp.take param.bech32HrpSize) v prog).length from hc), if_pos (by omega)]
      rfl
