import Verif.Props.OwnParameters
import Verif.Props.Rewritten
/-! Property theorems C110: chain parameters of the user's own, addresses (`src/btc/address.c`). -/
open Address AddressSpec Own

namespace Own

/-- The text of a pay-to-key-hash or pay-to-script-hash address with an arbitrary prefix. -/
def base58 (pre hash : List Byte) : List Byte := Base58CheckSpec.encode (pre ++ hash)
/-- The human-readable part. -/
def hrp (param : ChainParameters) : List Byte := param.bech32Hrp.take param.bech32HrpSize

theorem base58_decode (pre hash : List Byte) :
    Base58Spec.decode? (base58 pre hash) = some (pre ++ hash ++ Base58CheckSpec.checksum (pre ++ hash)) := decode_encode58 _

theorem base58_decodeCheck (pre hash : List Byte) : Base58CheckSpec.decode? (base58 pre hash) = some (pre ++ hash) := by
  rw [Base58CheckSpec.decode?, base58_decode, Option.bind_some, Base58Check.check?_append]

theorem base58_length_le (pre hash : List Byte) :
    (base58 pre hash).length ≤ Base58Check.toBase58CheckLength hash.length pre.length := by
  have := encodeCheck_length_le (pre ++ hash)
  rw [Base58Check.toBase58CheckLength]
  rw [List.length_append] at this
  rwa [show hash.length + 4 + pre.length = pre.length + hash.length + 4 by omega]

/-- The decoder on a Base58Check text with the non-empty payload `q`. -/
theorem decode_payload (param : ChainParameters) (hf : Fits param) (host : Host) (cs : Bool) (stack q post out : List Byte) (hq : q ≠ [])
    (hsz : q.length ≤ 2000000) (hroom : Base58Check.fromBase58CheckLength (Base58CheckSpec.encode q).length ≤ out.length)
    (ho : q.length + 4 ≤ out.length) :
    addressDecode host cs stack (Base58CheckSpec.encode q ++ 0#8 :: post) (Base58CheckSpec.encode q).length out out.length param =
      let m := over (q ++ Base58CheckSpec.checksum q) out
      if pubkey param <+: q then .ok ⟨.pubkey, over (q.drop (pubkey param).length) m, q.length - (pubkey param).length⟩
      else if script param <+: q then .ok ⟨.script, over (q.drop (script param).length) m, q.length - (script param).length⟩
      else decodeBech32 cs stack (Base58CheckSpec.encode q ++ 0#8 :: post) (Base58CheckSpec.encode q).length m out.length param := by
  have hd : Base58Spec.decode? (Base58CheckSpec.encode q) = some (q ++ Base58CheckSpec.checksum q) := decode_encode58 _
  have hrd : Base58Spec.Readable cs (Base58CheckSpec.encode q) := by
    refine Base58Check.readable_of _ _ (fun _ b hb => (encode58_chars _ b hb).2.2.1) ?_
    have := encodeCheck_length_le q
    unfold Base58.toBase58Length at this
    omega
  have h := addressDecode_eq host cs stack (Base58CheckSpec.encode q) post out out.length param
    (fun b hb => (encode58_chars _ b hb).2.1) hrd hroom
    (by
      intro W hW
      rw [hd] at hW
      injection hW with hW
      rw [← hW, List.length_append, Base58Check.checksum_length]; omega)
    hf.pubkey hf.script
  rw [Base58CheckSpec.decode?, hd, Option.bind_some, Base58Check.check?_append] at h
  rw [h, hf.pubkey_length, hf.script_length]
  cases q with
  | nil => exact absurd rfl hq
  | cons c p => rfl

end Own

/-- C110 (writing, base58 addresses). With any parameters: 0 and an unchanged buffer exactly when `out_size` is below the required size;
otherwise the Base58Check text of prefix and hash is written and its length, at most `out_size`, returned. -/
theorem C110_base58_encoders (param : ChainParameters) (host : Host) (hash out : List Byte) (outSize : Nat) (hf : Fits param)
    (hsz : hash.length ≤ 999999) (hp : param.prefixPubkeyAddressSize ≤ 999999) (hq : param.prefixScriptAddressSize ≤ 999999)
    (ho : outSize ≤ out.length) :
    (toAddressPubkey host hash hash.length out outSize param =
      .ok (if outSize < Base58Check.toBase58CheckLength hash.length (pubkey param).length then (out, 0)
        else (over (Own.base58 (pubkey param) hash) out, (Own.base58 (pubkey param) hash).length))) ∧
    (toAddressScript host hash hash.length out outSize param =
      .ok (if outSize < Base58Check.toBase58CheckLength hash.length (script param).length then (out, 0)
        else (over (Own.base58 (script param) hash) out, (Own.base58 (script param) hash).length))) ∧
    ∀ pre, (Own.base58 pre hash).length ≤ Base58Check.toBase58CheckLength hash.length pre.length := by
  refine ⟨?_, ?_, fun pre => Own.base58_length_le pre hash⟩
  · rw [toAddressPubkey, hf.pubkey_length]
    split
    · rfl
    · have hle := Own.base58_length_le (pubkey param) hash
      rw [hf.pubkey_length] at hle
      have h := Base58Check.toBase58Check_eq host hash hash.length param.prefixPubkeyAddress param.prefixPubkeyAddressSize out (by omega)
        hf.pubkey (by omega) (by rw [List.take_length]; exact Nat.le_trans hle (by omega))
      rw [List.take_length] at h
      exact h
  · rw [toAddressScript, hf.script_length]
    split
    · rfl
    · have hle := Own.base58_length_le (script param) hash
      rw [hf.script_length] at hle
      have h := Base58Check.toBase58Check_eq host hash hash.length param.prefixScriptAddress param.prefixScriptAddressSize out (by omega)
        hf.script (by omega) (by rw [List.take_length]; exact Nat.le_trans hle (by omega))
      rw [List.take_length] at h
      exact h

/-- C110 (pay-to-key-hash addresses come back). Whatever the parameters, the text of a prefix and a hash that are not both empty is read as
an address of that kind with that hash. -/
theorem C110_pubkey_own_text (param : ChainParameters) (host : Host) (cs : Bool) (stack hash post out : List Byte) (hf : Fits param)
    (hne : pubkey param ++ hash ≠ []) (hsz : (pubkey param ++ hash).length ≤ 1999998)
    (hroom : Base58Check.fromBase58CheckLength (Own.base58 (pubkey param) hash).length ≤ out.length)
    (ho : (pubkey param ++ hash).length + 4 ≤ out.length) :
    ∃ mem, addressDecode host cs stack (Own.base58 (pubkey param) hash ++ 0#8 :: post) (Own.base58 (pubkey param) hash).length out out.length param =
      .ok ⟨.pubkey, mem, hash.length⟩ ∧ mem.take hash.length = hash := by
  have h := Own.decode_payload param hf host cs stack (pubkey param ++ hash) post out hne (by omega) hroom ho
  simp only [] at h
  rw [if_pos (List.prefix_append _ _), List.drop_left, List.length_append, Nat.add_sub_cancel_left] at h
  exact ⟨_, h, by simp [over]⟩

/-- C110 (pay-to-script-hash addresses, what happens). Whatever the parameters: the text is read as an address of that kind with that hash if prefix
and hash do not start with the prefix of key hashes; if they do, it is read as the address of a key hash, which consists of what follows
that prefix. -/
theorem C110_script_own_text (param : ChainParameters) (host : Host) (cs : Bool) (stack hash post out : List Byte) (hf : Fits param)
    (hne : script param ++ hash ≠ []) (hsz : (script param ++ hash).length ≤ 1999998)
    (hroom : Base58Check.fromBase58CheckLength (Own.base58 (script param) hash).length ≤ out.length)
    (ho : (script param ++ hash).length + 4 ≤ out.length) :
    (¬ pubkey param <+: script param ++ hash →
      ∃ mem, addressDecode host cs stack (Own.base58 (script param) hash ++ 0#8 :: post) (Own.base58 (script param) hash).length out out.length param =
        .ok ⟨.script, mem, hash.length⟩ ∧ mem.take hash.length = hash) ∧
    ∀ rest, script param ++ hash = pubkey param ++ rest →
      ∃ mem, addressDecode host cs stack (Own.base58 (script param) hash ++ 0#8 :: post) (Own.base58 (script param) hash).length out out.length param =
        .ok ⟨.pubkey, mem, rest.length⟩ ∧ mem.take rest.length = rest := by
  have h := Own.decode_payload param hf host cs stack (script param ++ hash) post out hne (by omega) hroom ho
  simp only [] at h
  constructor
  · intro hno
    rw [if_neg hno, if_pos (List.prefix_append _ _), List.drop_left, List.length_append, Nat.add_sub_cancel_left] at h
    exact ⟨_, h, by simp [over]⟩
  · intro rest hr
    have hp : pubkey param <+: script param ++ hash := ⟨rest, hr.symm⟩
    rw [if_pos hp] at h
    rw [Own.base58, h, hr, List.drop_left, List.length_append, Nat.add_sub_cancel_left]
    exact ⟨_, rfl, by simp [over]⟩

/-- C110 (pay-to-script-hash addresses, the part that holds): if neither prefix starts with the other, every such address comes back. -/
theorem C110_script_roundtrip_partial (param : ChainParameters) (host : Host) (cs : Bool) (stack hash post out : List Byte) (hf : Fits param)
    (h1 : ¬ pubkey param <+: script param) (h2 : ¬ script param <+: pubkey param) (hsz : (script param ++ hash).length ≤ 1999998)
    (hroom : Base58Check.fromBase58CheckLength (Own.base58 (script param) hash).length ≤ out.length)
    (ho : (script param ++ hash).length + 4 ≤ out.length) :
    ∃ mem, addressDecode host cs stack (Own.base58 (script param) hash ++ 0#8 :: post) (Own.base58 (script param) hash).length out out.length param =
      .ok ⟨.script, mem, hash.length⟩ ∧ mem.take hash.length = hash := by
  have hne : script param ++ hash ≠ [] := by
    intro h
    rw [(List.append_eq_nil_iff.mp h).1] at h2
    exact h2 (List.nil_prefix)
  refine (C110_script_own_text param host cs stack hash post out hf hne hsz hroom ho).1 fun h => ?_
  rcases List.prefix_or_prefix_of_prefix h (List.prefix_append _ hash) with h | h
  · exact h1 h
  · exact h2 h

/-- C110 is violated by the code: if the prefix of script hashes starts with the prefix of key hashes (for example if it is longer by a byte),
every address of a script hash is read as the address of a key hash, with the rest of the prefix in front of it. -/
theorem C110_violated_script_as_pubkey (param : ChainParameters) (host : Host) (cs : Bool) (stack hash post out rest : List Byte)
    (hf : Fits param) (h : script param = pubkey param ++ rest) (hne : script param ++ hash ≠ []) (hsz : (script param ++ hash).length ≤ 1999998)
    (hroom : Base58Check.fromBase58CheckLength (Own.base58 (script param) hash).length ≤ out.length)
    (ho : (script param ++ hash).length + 4 ≤ out.length) :
    ∃ mem, addressDecode host cs stack (Own.base58 (script param) hash ++ 0#8 :: post) (Own.base58 (script param) hash).length out out.length param =
      .ok ⟨.pubkey, mem, (rest ++ hash).length⟩ ∧ mem.take (rest ++ hash).length = rest ++ hash :=
  (C110_script_own_text param host cs stack hash post out hf hne hsz hroom ho).2 (rest ++ hash) (by rw [h, List.append_assoc])

/-- C110 (what is read as a base58 address). Under any parameters, whatever text is read as an address of a key hash or a script hash is,
blanks at its ends apart, the Base58Check text of the prefix and the hash delivered. -/
theorem C110_base58_address_sound (param : ChainParameters) (host : Host) (cs : Bool) (stack s post out : List Byte) (r : Decoded)
    (hf : Fits param) (hh : param.bech32HrpSize ≤ param.bech32Hrp.length) (h0 : ∀ b ∈ s, b ≠ 0#8) (hst : stack.length = 128)
    (h : addressDecode host cs stack (s ++ 0#8 :: post) s.length out out.length param = .ok r) :
    (r.kind = .pubkey → trim58 s = Own.base58 (pubkey param) (r.out.take r.outSize)) ∧
    (r.kind = .script → trim58 s = Own.base58 (script param) (r.out.take r.outSize) ∧ ¬ pubkey param <+: script param ++ r.out.take r.outSize) := by
  have hbech : ∀ out' sz, decodeBech32 cs stack (s ++ 0#8 :: post) s.length out' sz param = .ok r → r.kind ≠ .pubkey ∧ r.kind ≠ .script := by
    intro out' sz he
    rcases decodeBech32_any s (0#8 :: post) cs stack out' sz param hst (by simp) hh with hb | ⟨D, hD, -, hb⟩
    · rw [hb] at he
      rw [← Res.ok.inj he]; exact ⟨nofun, nofun⟩
    · rw [hb] at he
      exact witness_kinds _ _ _ _ _ r he
  by_cases hc : ¬ Base58Check.fromBase58CheckLength s.length ≤ out.length
  · rw [addressDecode, if_pos (by omega)] at h
    rw [← Res.ok.inj h]
    exact ⟨nofun, nofun⟩
  rw [not_not] at hc
  have hr : Base58Spec.Readable cs s ∧ ∀ W, Base58Spec.decode? s = some W → W.length ≤ out.length := by
    by_contra hno
    rw [addressDecode, if_neg (by omega), (Base58Check.fromBase58Check_ub_iff host cs s post out h0).mpr hno] at h
    cases h
  rw [addressDecode_eq host cs stack s post out out.length param h0 hr.1 hc hr.2 hf.pubkey hf.script] at h
  split at h
  · rename_i c p hd
    have htrim : trim58 s = Base58CheckSpec.encode (c :: p) := by
      rw [Base58CheckSpec.decode?] at hd
      cases hW : Base58Spec.decode? s with
      | none => rw [hW] at hd; cases hd
      | some W =>
        rw [hW, Option.bind_some] at hd
        have hWe := Base58Check.check?_some hd
        subst hWe
        exact (C16_reencode s _ hW).symm
    simp only [] at h
    split at h
    · rename_i hp
      obtain ⟨t, ht⟩ := hp
      have hl : (param.prefixPubkeyAddress.take param.prefixPubkeyAddressSize).length = param.prefixPubkeyAddressSize := hf.pubkey_length
      rw [← ht, List.drop_left' hl, List.length_append, hl, Nat.add_sub_cancel_left] at h
      rw [← Res.ok.inj h]
      refine ⟨fun _ => ?_, nofun⟩
      rw [htrim, ← ht, Own.base58]
      simp only [over, List.take_left]
      rfl
    · rename_i hnp
      split at h
      · rename_i hp
        obtain ⟨t, ht⟩ := hp
        have hl : (param.prefixScriptAddress.take param.prefixScriptAddressSize).length = param.prefixScriptAddressSize := hf.script_length
        rw [← ht, List.drop_left' hl, List.length_append, hl, Nat.add_sub_cancel_left] at h
        rw [← Res.ok.inj h]
        refine ⟨nofun, fun _ => ?_⟩
        simp only [over, List.take_left]
        rw [htrim, ← ht, Own.base58]
        rw [← ht] at hnp
        exact ⟨rfl, hnp⟩
      · have := hbech _ _ h
        exact ⟨fun e => absurd e this.1, fun e => absurd e this.2⟩
  · have := hbech _ _ h
    exact ⟨fun e => absurd e this.1, fun e => absurd e this.2⟩

namespace Own
open Bech32 Bech32Spec

/-- `fingera_bech32_decode` with too little room for the human-readable part. -/
theorem decode_long_hrp {s H D : List Byte} (hv : Valid s H D) (post hrp : List Byte) (cap : Nat)
    (b32 : List Byte) (hH : cap < H.length) :
    decode (s ++ 0#8 :: post) s.length hrp cap b32 = .ok ⟨-3, hrp, cap, b32⟩ := by
  obtain ⟨a, d, k, hs, ha, hd, hk, hdl, hleg, hp⟩ := valid_split hv
  have hill : illegal s = false := (illegal_false_iff s).mpr ⟨hv.range, hv.case⟩
  have hnz : ∀ c ∈ s, c ≠ 0#8 := by
    intro c hc h0
    have := hv.range c hc
    rw [h0] at this
    simp at this
  have hal : a.length = H.length := by rw [← ha, List.length_map]
  have hH0 : H.length ≠ 0 := fun h => hv.hrp_ne (List.length_eq_zero_iff.mp h)
  rw [decode, isIllegal_eq, Res.ok_bind, hill]
  simp only [Bool.false_eq_true, if_false]
  have hstr : strrchr (s ++ 0#8 :: post) (chr '1') = .ok (some a.length) := by
    have := strrchrFrom_some 49#8 a (d ++ k) post 0 none (by decide)
      (fun x hx => hnz x (by rw [hs]; simp [hx]))
      (fun x hx => ⟨(hleg x hx).2, hnz x (by rw [hs]; rcases List.mem_append.mp hx with h | h <;> simp [h])⟩)
    rw [Nat.zero_add] at this
    rw [strrchr, show chr '1' = 49#8 from by decide, hs, ← this]
    simp
  rw [hstr]
  simp only [Res.ok_bind]
  have hsl : s.length = a.length + 1 + d.length + 6 := by rw [hs]; simp [hk]; omega
  have hl := hv.length
  rw [if_neg (by omega), if_pos (by omega)]
  rfl

end Own

/-- C110 (witness addresses, what happens). Under any parameters with a human-readable part of visible characters that are not upper-case letters: the text
of a witness program (2 to 40 bytes, version 0 to 16; at most 90 characters in all) that is not by chance an address in base58 is read as
that version and program if the human-readable part has at most 16 characters, and refused if it has more.  Provided the
indeterminate bytes of the decoder's array have a NUL before any `'='` (see C39). -/
theorem C110_witness_own_text (param : ChainParameters) (host : Host) (cs : Bool) (stack : List Byte) (v : Byte) (prog post out : List Byte)
    (hf : Fits param) (hh : param.bech32HrpSize ≤ param.bech32Hrp.length) (hne : Own.hrp param ≠ [])
    (hvis : ∀ c ∈ Own.hrp param, 33 ≤ c.toNat ∧ c.toNat ≤ 126 ∧ ¬ Bech32Spec.isUpper c)
    (hv : v.toNat ≤ 16) (h2 : 2 ≤ prog.length) (h40 : prog.length ≤ 40) (h90 : (witness (Own.hrp param) v prog).length ≤ 90)
    (hst : stack.length = 128) (hnul : NulFirst (Base32Spec.encodeRaw prog ++ stack.drop (1 + (8 * prog.length + 4) / 5)))
    (hmix : ∀ p, Base58CheckSpec.decode? (witness (Own.hrp param) v prog) = some p → ¬ pubkey param <+: p ∧ ¬ script param <+: p)
    (ho : (witness (Own.hrp param) v prog).length + 1 ≤ out.length) :
    ∃ mem, addressDecode host cs stack (witness (Own.hrp param) v prog ++ 0#8 :: post) (witness (Own.hrp param) v prog).length out out.length param =
        (if (Own.hrp param).length ≤ 16 then
          .ok (if v = 0#8 then
            ⟨if prog.length = 20 then .witnessV0Keyhash else if prog.length = 32 then .witnessV0Scripthash else .bad, mem, prog.length⟩
          else ⟨.witnessUnknown, mem, prog.length + 1⟩)
        else .ok ⟨.bad, mem, out.length⟩) ∧
      ((Own.hrp param).length ≤ 16 →
        mem.take (if v = 0#8 then prog.length else prog.length + 1) = if v = 0#8 then prog else v :: prog) := by
  have hwl := witness_length (Own.hrp param) v prog
  have hch := witness_chars (Own.hrp param) v prog (by omega) (fun c hc => ⟨(hvis c hc).1, (hvis c hc).2.1⟩)
  have hval : Bech32Spec.Valid (witness (Own.hrp param) v prog) (Own.hrp param) (v :: Base32Spec.encodeRaw prog) := by
    refine valid_encode hne (fun c hc => ⟨(hvis c hc).1, (hvis c hc).2.1⟩) (fun c hc => (hvis c hc).2.2) ?_ ?_
    · intro x hx
      rcases List.mem_cons.mp hx with h | h
      · rw [h]; omega
      · exact encodeRaw_lt prog x h
    · rw [List.length_cons, encodeRaw_length]; omega
  have hfit : ∀ W, Base58Spec.decode? (witness (Own.hrp param) v prog) = some W → W.length ≤ out.length := by
    intro W hW
    have hle := decode58_length_le _ _ hW
    have : (((witness (Own.hrp param) v prog).dropWhile Base58Spec.isSpace).takeWhile (· = 49#8)).length ≤
        (witness (Own.hrp param) v prog).length :=
      Nat.le_trans (List.takeWhile_sublist _).length_le (List.dropWhile_suffix _).length_le
    generalize (((witness (Own.hrp param) v prog).dropWhile Base58Spec.isSpace).takeWhile (· = 49#8)).length = z at *
    have : ((witness (Own.hrp param) v prog).length - z) * 733 / 1000 ≤ (witness (Own.hrp param) v prog).length - z := by omega
    omega
  have hto : ∃ out', out'.length = out.length ∧
      addressDecode host cs stack (witness (Own.hrp param) v prog ++ 0#8 :: post) (witness (Own.hrp param) v prog).length out out.length param =
      decodeBech32 cs stack (witness (Own.hrp param) v prog ++ 0#8 :: post) (witness (Own.hrp param) v prog).length out' out.length param := by
    have h := addressDecode_eq host cs stack (witness (Own.hrp param) v prog) post out out.length param
      (by intro b hb h0; have := hch b hb; rw [h0] at this; simp at this)
      (Base58Check.readable_of _ _ (by intro _ b hb; have := hch b hb; omega) (by omega))
      (by rw [Base58Check.fromBase58CheckLength, Base58.fromBase58Length]; omega) hfit hf.pubkey hf.script
    cases hd : Base58CheckSpec.decode? (witness (Own.hrp param) v prog) with
    | none =>
      rw [hd] at h
      refine ⟨_, ?_, h⟩
      cases hb : Base58Spec.decode? (witness (Own.hrp param) v prog) with
      | none => simp [over]
      | some W => exact over_length _ _ (hfit W hb)
    | some cp =>
      rw [hd] at h
      cases cp with
      | nil =>
        refine ⟨_, ?_, h⟩
        cases hb : Base58Spec.decode? (witness (Own.hrp param) v prog) with
        | none => simp [over]
        | some W => exact over_length _ _ (hfit W hb)
      | cons c p =>
        obtain ⟨hc1, hc2⟩ := hmix _ hd
        simp only [] at h
        rw [if_neg (c := param.prefixPubkeyAddress.take _ <+: _) hc1, if_neg (c := param.prefixScriptAddress.take _ <+: _) hc2] at h
        refine ⟨_, ?_, h⟩
        apply over_length
        have hd' := hd
        rw [Base58CheckSpec.decode?] at hd'
        cases hb : Base58Spec.decode? (witness (Own.hrp param) v prog) with
        | none => rw [hb] at hd'; simp at hd'
        | some W =>
          rw [hb, Option.bind_some] at hd'
          rw [← Base58Check.check?_some hd']
          exact hfit W hb
  obtain ⟨out', ho', hdec⟩ := hto
  rw [hdec]
  by_cases h16 : (Own.hrp param).length ≤ 16
  · have hbuf : over (v :: Base32Spec.encodeRaw prog) stack =
        v :: Base32Spec.encodeRaw prog ++ stack.drop (1 + (8 * prog.length + 4) / 5) := by
      rw [over, List.length_cons, encodeRaw_length, Nat.add_comm 1]
    rw [decodeBech32_valid hval cs stack post out' out.length param hst (by simp) h16 hh,
      if_pos (show Own.hrp param = param.bech32Hrp.take param.bech32HrpSize from rfl), hbuf, List.length_cons,
      decodeWitness_eq cs v prog _ out' out.length hnul (by omega) (by omega)]
    simp only [if_pos h16]
    by_cases hv0 : v = 0#8
    · simp only [if_pos hv0]
      exact ⟨_, rfl, fun _ => by simp [over]⟩
    · simp only [if_neg hv0]
      rw [if_neg (by omega)]
      exact ⟨_, rfl, fun _ => by simp [over]⟩
  · refine ⟨out', ?_, fun h => absurd h h16⟩
    rw [if_neg h16, decodeBech32, Own.decode_long_hrp hval post (List.replicate 16 0xAA#8) 16 _ (by omega), Res.ok_bind]
    rw [if_pos (Or.inl (show (-3 : Int) < 1 by decide))]
    rfl

/-- C110 is violated by the code: no witness address of a chain with a human-readable part of more than 16 characters (BIP 173 admits 83) is
ever accepted. -/
theorem C110_violated_long_hrp (param : ChainParameters) (host : Host) (cs : Bool) (stack : List Byte) (v : Byte) (prog post out : List Byte)
    (hf : Fits param) (hh : param.bech32HrpSize ≤ param.bech32Hrp.length) (h17 : 16 < (Own.hrp param).length)
    (hvis : ∀ c ∈ Own.hrp param, 33 ≤ c.toNat ∧ c.toNat ≤ 126 ∧ ¬ Bech32Spec.isUpper c)
    (hv : v.toNat ≤ 16) (h2 : 2 ≤ prog.length) (h40 : prog.length ≤ 40) (h90 : (witness (Own.hrp param) v prog).length ≤ 90)
    (hst : stack.length = 128) (hnul : NulFirst (Base32Spec.encodeRaw prog ++ stack.drop (1 + (8 * prog.length + 4) / 5)))
    (hmix : ∀ p, Base58CheckSpec.decode? (witness (Own.hrp param) v prog) = some p → ¬ pubkey param <+: p ∧ ¬ script param <+: p)
    (ho : (witness (Own.hrp param) v prog).length + 1 ≤ out.length) :
    ∃ mem, addressDecode host cs stack (witness (Own.hrp param) v prog ++ 0#8 :: post) (witness (Own.hrp param) v prog).length out out.length param =
      .ok ⟨.bad, mem, out.length⟩ := by
  obtain ⟨mem, h, -⟩ := C110_witness_own_text param host cs stack v prog post out hf hh (by intro e; rw [e] at h17; simp at h17) hvis hv h2 h40 h90 hst
    hnul hmix ho
  rw [if_neg (by omega)] at h
  exact ⟨mem, h⟩
