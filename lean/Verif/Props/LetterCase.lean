import Verif.Lemmas.LetterCase
import Verif.Props.NeedDecode
import Verif.Props.Rewritten
/-! Property theorems C109: where letter case does not matter. -/
open Bech32Spec Address AddressSpec

/-- C109, hex: texts that differ only in the case of letters are read alike, whatever else they contain, wherever they end. -/
theorem C109_from_hex (s s' buf : List Byte) (n : Nat) (h : s.map lower = s'.map lower) :
    Hex.fromHex s n buf = Hex.fromHex s' n buf := LetterCase.fromHex_case h n buf

/-- C109, Base32: the same, and the announced length is the same. -/
theorem C109_from_base32 (cs : Bool) (s s' buf : List Byte) (n : Nat) (h : s.map lower = s'.map lower) :
    Base32.fromBase32 cs s n buf = Base32.fromBase32 cs s' n buf ∧
    Base32.fromBase32Length s n = Base32.fromBase32Length s' n := by
  refine ⟨LetterCase.fromBase32_case cs h n buf, ?_⟩
  unfold Base32.fromBase32Length Base32.strlen strchr
  rw [LetterCase.strchr_case (chr '=') LetterCase.lower_pad h 0]

namespace LetterCase

theorem illegal_case {s s' : List Byte} (h : SameLetters s s') (hc : ¬ ((∃ c ∈ s, isUpper c) ∧ ∃ c ∈ s, isLower c))
    (hc' : ¬ ((∃ c ∈ s', isUpper c) ∧ ∃ c ∈ s', isLower c)) : Bech32.illegal s = Bech32.illegal s' := by
  have key : Bech32.illegal s = false ↔ Bech32.illegal s' = false := by
    rw [illegal_false_iff, illegal_false_iff]
    have vis : ∀ {a b : List Byte}, SameLetters a b → (∀ c ∈ b, 33 ≤ c.toNat ∧ c.toNat ≤ 126) →
        ∀ c ∈ a, 33 ≤ c.toNat ∧ c.toNat ≤ 126 := by
      intro a b hab hb c hca
      obtain ⟨d, hd, e⟩ := hab.mem hca
      exact (iff_of_lower (P := fun c : Byte => 33 ≤ c.toNat ∧ c.toNat ≤ 126) lower_visible e).mpr (hb d hd)
    exact ⟨fun ⟨h1, _⟩ => ⟨vis h.symm h1, hc'⟩, fun ⟨h1, _⟩ => ⟨vis h h1, hc⟩⟩
  cases h1 : Bech32.illegal s with
  | false => exact (key.mp h1).symm
  | true =>
    cases h2 : Bech32.illegal s' with
    | true => rfl
    | false => rw [key.mpr h2] at h1; cases h1

theorem decode_case {s s' : List Byte} (h : SameLetters s s') (hc : ¬ ((∃ c ∈ s, isUpper c) ∧ ∃ c ∈ s, isLower c))
    (hc' : ¬ ((∃ c ∈ s', isUpper c) ∧ ∃ c ∈ s', isLower c)) (post hrp b32 : List Byte) (cap : Nat) :
    Bech32.decode (s ++ post) s.length hrp cap b32 = Bech32.decode (s' ++ post) s'.length hrp cap b32 := by
  have hp : SameLetters (s ++ post) (s' ++ post) := h.append rfl
  unfold Bech32.decode
  rw [Bech32.isIllegal_eq, Bech32.isIllegal_eq, illegal_case h hc hc', h.length]
  unfold strrchr
  rw [strrchr_case (chr '1') lower_one hp]
  simp only [decodeAt_case hp]

theorem valid_case {s s' H D : List Byte} (h : SameLetters s s')
    (hc' : ¬ ((∃ c ∈ s', isUpper c) ∧ ∃ c ∈ s', isLower c)) (hv : Valid s H D) : Valid s' H D := by
  refine ⟨by rw [← h.length]; exact hv.length, ?_, hc', hv.hrp_ne, ?_⟩
  · intro c hcs
    obtain ⟨d, hd, e⟩ := h.symm.mem hcs
    exact (iff_of_lower (P := fun c : Byte => 33 ≤ c.toNat ∧ c.toNat ≤ 126) lower_visible e).mpr (hv.range d hd)
  · obtain ⟨S, h1, h2, h3, h4⟩ := hv.parts
    exact ⟨S, h1, h2, by rw [← h3]; exact Eq.symm h, h4⟩

end LetterCase

/-- C109, Bech32: two texts that differ only in the case of letters, neither of which has letters of both cases, are read alike: the
same verdict, the same lower-case prefix, the same values. -/
theorem C109_bech32_decode (s s' post hrp b32 : List Byte) (cap : Nat) (h : s.map lower = s'.map lower)
    (hc : ¬ ((∃ c ∈ s, isUpper c) ∧ ∃ c ∈ s, isLower c)) (hc' : ¬ ((∃ c ∈ s', isUpper c) ∧ ∃ c ∈ s', isLower c)) :
    Bech32.decode (s ++ post) s.length hrp cap b32 = Bech32.decode (s' ++ post) s'.length hrp cap b32 :=
  LetterCase.decode_case h hc hc' post hrp b32 cap

namespace LetterCase

/-- What the decoder does after the Base58 attempt. -/
theorem after_base58 {host : Host} {cs : Bool} {stack str out o : List Byte} {n m size : Nat} {param : ChainParameters} {r : Decoded}
    (h58 : Base58Check.fromBase58Check host cs str n out = .ok (o, size)) (hroom : Base58Check.fromBase58CheckLength n ≤ m)
    (h : addressDecode host cs stack str n out m param = .ok r) :
    (r.kind = .pubkey ∨ r.kind = .script) ∨ decodeBech32 cs stack str n o m param = .ok r := by
  have strip_kind : ∀ k o n m, strip k o n m = .ok r → r.kind = k := by
    intro k o n m hs
    unfold strip at hs
    cases hm : memcpy o 0 (o.drop m) (n - m) with
    | ok v => rw [hm, Res.ok_bind] at hs; cases hs; rfl
    | ub => rw [hm] at hs; cases hs
    | abort => rw [hm] at hs; cases hs
  rw [addressDecode, if_neg (by omega), h58, Res.ok_bind] at h
  dsimp only at h
  by_cases hz : size ≠ 0
  · rw [if_pos hz] at h
    cases hp : hasPrefix o size param.prefixPubkeyAddress param.prefixPubkeyAddressSize with
    | ub => rw [hp] at h; cases h
    | abort => rw [hp] at h; cases h
    | ok p =>
      rw [hp, Res.ok_bind] at h
      cases p with
      | true => exact .inl (.inl (strip_kind _ _ _ _ h))
      | false =>
        simp only [Bool.false_eq_true, if_false] at h
        cases hq : hasPrefix o size param.prefixScriptAddress param.prefixScriptAddressSize with
        | ub => rw [hq] at h; cases h
        | abort => rw [hq] at h; cases h
        | ok q =>
          rw [hq, Res.ok_bind] at h
          cases q with
          | true => exact .inl (.inr (strip_kind _ _ _ _ h))
          | false => exact .inr h
  · rw [if_neg hz] at h
    exact .inr h

theorem decodeBech32_read (cs : Bool) (stack str : List Byte) (n m : Nat) (param : ChainParameters) {a b : List Byte}
    (h : a.length = b.length) :
    Sim SameAddress (decodeBech32 cs stack str n a m param) (decodeBech32 cs stack str n b m param) := by
  unfold decodeBech32
  refine Sim.same fun x => Sim.ite ⟨_, rfl, rfl, rfl, fun hb => absurd rfl hb⟩ (Sim.same fun y => Sim.ite
    ⟨_, rfl, rfl, rfl, fun hb => absurd rfl hb⟩ (decodeWitness_read cs _ _ _ h))

theorem no_ones {net : Network} {s D : List Byte} (hv : Valid s net.hrp D) : leadingOnes s = 0 := by
  obtain ⟨n1, n2, n4, n5, n6, n7, n8⟩ := net_hrp net
  obtain ⟨S, -, -, h3, -⟩ := hv.parts
  cases s with
  | nil => rfl
  | cons c s =>
    have hsp : Base58Spec.isSpace c = false := not_space c (hv.range c (by simp))
    have hne : c ≠ 49#8 := by
      rintro rfl
      apply n6
      cases hh : net.hrp with
      | nil => exact absurd hh n5
      | cons x t =>
        rw [hh, List.map_cons, List.cons_append, List.cons_append] at h3
        injection h3 with h3 _
        rw [List.head?_cons, ← h3]
        rfl
    rw [leadingOnes, List.dropWhile_cons_of_neg (by simp [hsp]), List.takeWhile_cons_of_neg (by simpa using hne)]
    rfl

/-- The decoder on the other case of a witness address. -/
theorem address_case (net : Network) (host : Host) (cs : Bool) (stack s s' post out : List Byte) (r : Decoded)
    (h : SameLetters s s') (hst : stack.length = 128)
    (hc' : ¬ ((∃ c ∈ s', isUpper c) ∧ ∃ c ∈ s', isLower c))
    (hr : addressDecode host cs stack (s ++ 0#8 :: post) s.length out out.length net.param = .ok r) (h0 : ∀ b ∈ s, b ≠ 0#8)
    (hk : r.kind = .witnessV0Keyhash ∨ r.kind = .witnessV0Scripthash ∨ r.kind = .witnessUnknown) :
    ∃ D, Valid s' net.hrp D ∧ D ≠ [] ∧ (Base58Check.fromBase58CheckLength s'.length ≤ out.length) ∧
    ∃ r', addressDecode host cs stack (s' ++ 0#8 :: post) s'.length out out.length net.param = .ok r' ∧
      ((∃ c p, Base58CheckSpec.decode? s' = some (c :: p) ∧
        ((r'.kind = .pubkey ∧ net.param.prefixPubkeyAddress.take net.param.prefixPubkeyAddressSize <+: c :: p) ∨
         (r'.kind = .script ∧ net.param.prefixScriptAddress.take net.param.prefixScriptAddressSize <+: c :: p))) ∨
        SameAddress r r') := by
  obtain ⟨n1, n2, n4, n5, n6, n7, n8⟩ := net_hrp net
  obtain ⟨p1, p2, p3⟩ := net_pub net
  obtain ⟨q1, q2, q3⟩ := net_script net
  have hroom : Base58Check.fromBase58CheckLength s.length ≤ out.length := by
    by_cases hro : Base58Check.fromBase58CheckLength s.length ≤ out.length
    · exact hro
    · rw [addressDecode, if_pos (by omega)] at hr
      rw [← Res.ok.inj hr] at hk
      rcases hk with hk | hk | hk <;> cases hk
  -- the Base58 attempt on the first text
  obtain ⟨o, hol, hdec⟩ : ∃ o : List Byte, o.length = out.length ∧
      decodeBech32 cs stack (s ++ 0#8 :: post) s.length o out.length net.param = .ok r := by
    cases h58 : Base58Check.fromBase58Check host cs (s ++ 0#8 :: post) s.length out with
    | ub => rw [addressDecode, if_neg (by omega), h58] at hr; cases hr
    | abort => rw [addressDecode, if_neg (by omega), h58] at hr; cases hr
    | ok x =>
      obtain ⟨o, size⟩ := x
      have hd := after_base58 h58 hroom hr
      have hd : decodeBech32 cs stack (s ++ 0#8 :: post) s.length o out.length net.param = .ok r := by
        rcases hd with (hd | hd) | hd
        · rw [hd] at hk; rcases hk with hk | hk | hk <;> cases hk
        · rw [hd] at hk; rcases hk with hk | hk | hk <;> cases hk
        · exact hd
      refine ⟨o, ?_, hd⟩
      have hnub : Base58Check.fromBase58Check host cs (s ++ 0#8 :: post) s.length out ≠ .ub := by rw [h58]; nofun
      rw [ne_eq, Base58Check.fromBase58Check_ub_iff host cs s post out h0, not_not] at hnub
      rw [Base58Check.fromBase58Check_readable host cs s post out h0 hnub.1 hnub.2] at h58
      split at h58
      · injection h58 with h58; injection h58 with h58 _; rw [← h58]
      · rename_i W hW
        injection h58 with h58; injection h58 with h58 _
        rw [← h58, over_length _ _ (hnub.2 W hW)]
  -- so the text is valid Bech32, and so is the other one
  obtain ⟨D, hD, hDne⟩ : ∃ D, Valid s net.hrp D ∧ D ≠ [] := by
    rcases decodeBech32_any s (0#8 :: post) cs stack o out.length net.param hst (by simp) n1 with hb | ⟨D, hD, hne, -⟩
    · rw [hb] at hdec
      rw [← Res.ok.inj hdec] at hk
      rcases hk with hk | hk | hk <;> cases hk
    · rw [n2] at hD; exact ⟨D, hD, hne⟩
  have hv := valid_case h hc' hD
  have hroom' : Base58Check.fromBase58CheckLength s'.length ≤ out.length := by rw [← h.length]; exact hroom
  refine ⟨D, hv, hDne, hroom', ?_⟩
  have h0' : ∀ b ∈ s', b ≠ 0#8 := by
    intro b hb e
    have := (hv.range b hb).1
    rw [e] at this
    exact absurd this (by decide)
  have hread : Base58Spec.Readable cs s' := Base58Check.readable_of cs s'
    (fun _ b hb => by have := (hv.range b hb).2; omega) (by have := hv.length; omega)
  have hfit : ∀ W, Base58Spec.decode? s' = some W → W.length ≤ out.length := fun W hW =>
    Nat.le_trans (fits_of_leadingOnes s' W (by rw [no_ones hv]; omega) hW) hroom'
  have hb : ∀ o' : List Byte, o'.length = out.length → ∃ r', decodeBech32 cs stack (s' ++ 0#8 :: post) s'.length o' out.length net.param = .ok r' ∧
      SameAddress r r' := by
    intro o' ho'
    have e : decodeBech32 cs stack (s ++ 0#8 :: post) s.length o' out.length net.param =
        decodeBech32 cs stack (s' ++ 0#8 :: post) s'.length o' out.length net.param := by
      unfold decodeBech32
      rw [decode_case h hD.case hc' (0#8 :: post), h.length]
    have hs := decodeBech32_read cs stack (s ++ 0#8 :: post) s.length out.length net.param (hol.trans ho'.symm)
    rw [hdec] at hs
    obtain ⟨r', hr', hsame⟩ := hs
    exact ⟨r', by rw [← e]; exact hr', hsame⟩
  rw [addressDecode_eq host cs stack s' post out out.length net.param h0' hread hroom' hfit p1 q1]
  cases hcd : Base58CheckSpec.decode? s' with
  | none =>
    simp only
    obtain ⟨r', h1, h2⟩ := hb (over ((Base58Spec.decode? s').getD []) out) (by
      cases hd : Base58Spec.decode? s' with
      | none => simp
      | some W => rw [Option.getD_some, over_length _ _ (hfit W hd)])
    exact ⟨r', h1, .inr h2⟩
  | some p =>
    cases p with
    | nil =>
      simp only
      obtain ⟨r', h1, h2⟩ := hb (over ((Base58Spec.decode? s').getD []) out) (by
        cases hd : Base58Spec.decode? s' with
        | none => simp
        | some W => rw [Option.getD_some, over_length _ _ (hfit W hd)])
      exact ⟨r', h1, .inr h2⟩
    | cons c p =>
      simp only
      have hWl : ((c :: p) ++ Base58CheckSpec.checksum (c :: p)).length ≤ out.length := by
        rw [Base58CheckSpec.decode?] at hcd
        cases hd : Base58Spec.decode? s' with
        | none => rw [hd] at hcd; cases hcd
        | some W =>
          rw [hd, Option.bind_some] at hcd
          rw [← Base58Check.check?_some hcd]
          exact hfit W hd
      by_cases hP : net.param.prefixPubkeyAddress.take net.param.prefixPubkeyAddressSize <+: c :: p
      · rw [if_pos hP]
        exact ⟨_, rfl, .inl ⟨c, p, rfl, .inl ⟨rfl, hP⟩⟩⟩
      · rw [if_neg hP]
        by_cases hQ : net.param.prefixScriptAddress.take net.param.prefixScriptAddressSize <+: c :: p
        · rw [if_pos hQ]
          exact ⟨_, rfl, .inl ⟨c, p, rfl, .inr ⟨rfl, hQ⟩⟩⟩
        · rw [if_neg hQ]
          obtain ⟨r', h1, h2⟩ := hb _ (over_length _ _ hWl)
          exact ⟨r', h1, .inr h2⟩

end LetterCase

/-- C109, addresses: the other case of a witness address (of one case) is read as the same address: kind, size and bytes; unless it is
also the Base58Check text of a key or script address, which the decoder tries first.  Missing: that this never happens; it cannot for
upper-case texts of nearly all lengths (`C109_upper_address_partial`). -/
theorem C109_address_partial (net : Network) (host : Host) (cs : Bool) (stack s s' post out : List Byte) (r : Decoded)
    (h : s.map lower = s'.map lower) (hst : stack.length = 128) (h0 : ∀ b ∈ s, b ≠ 0#8)
    (hc' : ¬ ((∃ c ∈ s', isUpper c) ∧ ∃ c ∈ s', isLower c))
    (hr : addressDecode host cs stack (s ++ 0#8 :: post) s.length out out.length net.param = .ok r)
    (hk : r.kind = .witnessV0Keyhash ∨ r.kind = .witnessV0Scripthash ∨ r.kind = .witnessUnknown) :
    ∃ r', addressDecode host cs stack (s' ++ 0#8 :: post) s'.length out out.length net.param = .ok r' ∧
      (r'.kind = .pubkey ∨ r'.kind = .script ∨
        r'.kind = r.kind ∧ r'.outSize = r.outSize ∧ r'.out.take r'.outSize = r.out.take r.outSize) := by
  obtain ⟨_, _, _, _, r', h1, h2⟩ := LetterCase.address_case net host cs stack s s' post out r h hst hc' hr h0 hk
  refine ⟨r', h1, ?_⟩
  rcases h2 with ⟨_, _, _, (h2 | h2)⟩ | ⟨h2, h3, h4⟩
  · exact .inl h2.1
  · exact .inr (.inl h2.1)
  · refine .inr (.inr ⟨h2, h3, h4 ?_⟩)
    rcases hk with hk | hk | hk <;> (rw [hk]; decide)

