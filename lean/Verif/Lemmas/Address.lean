import Verif.Model.Address
import Verif.Spec.Address
import Verif.Props.Base32
import Verif.Props.Bech32
import Verif.Props.Base58Total
/-! Lemmas about the address model. -/
namespace Address
open AddressSpec

theorem encodeRaw_length (bs : List Byte) : (Base32Spec.encodeRaw bs).length = (8 * bs.length + 4) / 5 :=
  (C09_to_base32_raw bs (List.replicate ((8 * bs.length + 4) / 5) 0#8) (by simp)).2.1

theorem encodeRaw_lt (bs : List Byte) : ∀ g ∈ Base32Spec.encodeRaw bs, g.toNat < 32 :=
  (C09_to_base32_raw bs (List.replicate ((8 * bs.length + 4) / 5) 0#8) (by simp)).2.2

theorem witness_length (hrp : List Byte) (v : Byte) (prog : List Byte) :
    (witness hrp v prog).length = hrp.length + (8 * prog.length + 4) / 5 + 8 := by
  rw [witness, Bech32.encode_length, List.length_cons, encodeRaw_length]; omega

theorem witnessEncode_eq (buf : List Byte) (v : Byte) (prog out : List Byte) (outSize : Nat)
    (param : ChainParameters) (hv : v.toNat < 32) (hbuf : (8 * prog.length + 4) / 5 + 1 ≤ buf.length)
    (hh : param.bech32HrpSize ≤ param.bech32Hrp.length) (ho : outSize ≤ out.length) :
    witnessEncode buf v prog prog.length out outSize param =
      .ok (if outSize < (witness (param.bech32Hrp.take param.bech32HrpSize) v prog).length then (out, 0)
        else (over (witness (param.bech32Hrp.take param.bech32HrpSize) v prog) out,
          (witness (param.bech32Hrp.take param.bech32HrpSize) v prog).length)) := by
  obtain ⟨b0, buf, rfl⟩ : ∃ b0 r, buf = b0 :: r := by
    cases buf with
    | nil => simp at hbuf
    | cons b r => exact ⟨b, r, rfl⟩
  rw [List.length_cons] at hbuf
  obtain ⟨e, hl, hlt⟩ := C09_to_base32_raw prog buf (by omega)
  rw [witnessEncode, wr, if_pos (by simp), Res.ok_bind]
  simp only [List.set_cons_zero, List.drop_succ_cons, List.drop_zero, e, Res.ok_bind, List.take_succ_cons,
    List.take_zero]
  have hwl := witness_length (param.bech32Hrp.take param.bech32HrpSize) v prog
  rw [List.length_take, Nat.min_eq_left hh] at hwl
  have hL : Bech32.encodeLength param.bech32HrpSize ((Base32Spec.encodeRaw prog).length + 1) =
      (witness (param.bech32Hrp.take param.bech32HrpSize) v prog).length := by
    rw [Bech32.encodeLength, hwl, hl]; omega
  rw [hL]
  by_cases hc : outSize < (witness (param.bech32Hrp.take param.bech32HrpSize) v prog).length
  · rw [if_pos hc, if_pos hc]; rfl
  · rw [if_neg hc, if_neg hc]
    have ht : ([v] ++ over (Base32Spec.encodeRaw prog) buf).take ((Base32Spec.encodeRaw prog).length + 1) =
        v :: Base32Spec.encodeRaw prog := by
      simp [over]
    rw [Bech32.encode_eq _ _ _ _ _ hh (by simp [over]) (by
      rw [ht]
      intro x hx
      rcases List.mem_cons.mp hx with h | h
      · rw [h]; exact hv
      · exact hlt x h) (by
      have := hL
      rw [Bech32.encodeLength] at this
      omega), ht]
    rfl

theorem fromBase32RawLength_encodeRaw (prog : List Byte) :
    Base32.fromBase32RawLength (Base32Spec.encodeRaw prog).length = .ok prog.length := by
  have he : Base32Spec.encodeRaw prog = Base32.encText true prog := by
    simp [Base32Spec.encodeRaw, Base32.encText, Base32.encChar]
  unfold Base32.fromBase32RawLength
  rw [Base32.rd_tail _ (Nat.mod_lt _ (by omega))]
  simp only [Res.ok_bind, Res.pure_eq, ← Base32.decLen_eq, he, decLen_encText]

theorem strlen_nulFirst (m : List Byte) (n : Nat) (h : NulFirst m) : Base32.strlen m n = .ok n := by
  obtain ⟨a, b, rfl, ha⟩ := h
  unfold Base32.strlen strchr
  have h := strchrFrom_none (chr '=') a b 0 (by decide) (fun x hx h61 => ha (by rw [← show x = 61#8 from h61]; exact hx))
  rw [show (0#8 : Byte) :: b = 0 :: b from rfl, h]
  rfl

/-- Decoding the groups the encoder makes. -/
theorem decodeWitness_eq (cs : Bool) (v : Byte) (prog post out : List Byte) (outSize : Nat)
    (hn : NulFirst (Base32Spec.encodeRaw prog ++ post)) (h1 : prog.length + 1 ≤ out.length)
    (h2 : prog.length ≤ outSize) :
    decodeWitness cs (v :: Base32Spec.encodeRaw prog ++ post) ((Base32Spec.encodeRaw prog).length + 1)
      out outSize =
    .ok (if v = 0#8 then
        ⟨if prog.length = 20 then .witnessV0Keyhash else if prog.length = 32 then .witnessV0Scripthash
          else .bad, over prog out, prog.length⟩
      else ⟨if v.toNat > 16 ∨ prog.length + 1 < 3 ∨ prog.length + 1 > 41 then .bad else .witnessUnknown,
        over (v :: prog) out, prog.length + 1⟩) := by
  rw [decodeWitness, Nat.add_sub_cancel, fromBase32RawLength_encodeRaw, Res.ok_bind, if_pos h2]
  simp only [List.cons_append, rd, List.getElem?_cons_zero, Res.ok_bind, List.drop_succ_cons, List.drop_zero]
  have hs := strlen_nulFirst _ (Base32Spec.encodeRaw prog).length hn
  by_cases hv : v = 0#8
  · rw [if_pos hv, if_pos hv, fromBase32Raw_eq cs prog post out _ hs (by omega) rfl, Res.ok_bind]
    by_cases h20 : prog.length = 20
    · simp [h20]
    · by_cases h32 : prog.length = 32
      · simp [h32]
      · simp [h20, h32]
  · rw [if_neg hv, if_neg hv, wr, if_pos (by omega), Res.ok_bind]
    obtain ⟨o, out, rfl⟩ : ∃ o r, out = o :: r := by
      cases out with
      | nil => simp at h1
      | cons b r => exact ⟨b, r, rfl⟩
    simp only [List.set_cons_zero, List.drop_succ_cons, List.drop_zero, List.take_succ_cons, List.take_zero]
    rw [fromBase32Raw_eq cs prog post out _ hs (by simp at h1; omega) rfl, Res.ok_bind]
    have : [v] ++ over prog out = over (v :: prog) (o :: out) := by simp [over]
    simp only [this]
    split <;> rfl

theorem buffer_length (stack : List Byte) (n : Nat) (h7 : 7 ≤ n) (h : n ≤ 135) (hs : stack.length = 128) :
    buffer stack n = stack := by
  rw [buffer, if_pos (by omega), List.take_of_length_le (by omega)]

/-- The Bech32 branch on a valid string. -/
theorem decodeBech32_valid {s H D : List Byte} (hv : Bech32Spec.Valid s H D) (cs : Bool)
    (stack post out : List Byte) (outSize : Nat) (param : ChainParameters) (hs : stack.length = 128)
    (hD : D ≠ []) (hH : H.length ≤ 16) (hp : param.bech32HrpSize ≤ param.bech32Hrp.length) :
    decodeBech32 cs stack (s ++ 0#8 :: post) s.length out outSize param =
      if H = param.bech32Hrp.take param.bech32HrpSize then
        decodeWitness cs (over D stack) D.length out outSize
      else .ok ⟨.bad, out, outSize⟩ := by
  have hsl : s.length = H.length + D.length + 7 := by
    have h1 := (valid_lower_eq hv).1
    have h2 := congrArg List.length h1
    rwa [List.length_map, Bech32.encode_length] at h2
  have hl := hv.length
  have hDl : 1 ≤ D.length := List.length_pos_iff.mpr hD
  rw [decodeBech32, buffer_length stack _ (by omega) (by omega) hs,
    decode_of_valid hv post (List.replicate 16 0xAA#8) 16 stack (by simp) hH (by omega), Res.ok_bind]
  by_cases hsz : H.length = param.bech32HrpSize
  · rw [if_neg (by simp only [not_or]; omega), memeq, if_pos (by simp [over]; omega), Res.ok_bind]
    simp only
    rw [show (over H (List.replicate 16 0xAA#8)).take H.length = H from BtcHash.take_over rfl, hsz]
    by_cases he : H = param.bech32Hrp.take param.bech32HrpSize
    · rw [if_pos he]
      have : (H == param.bech32Hrp.take param.bech32HrpSize) = true := by simpa using he
      rw [this]
      rfl
    · rw [if_neg he]
      have : (H == param.bech32Hrp.take param.bech32HrpSize) = false := by simpa using he
      rw [this]
      rfl
  · rw [if_pos (by right; exact hsz), if_neg]
    · rfl
    · intro he
      rw [he, List.length_take] at hsz
      omega

/-- The bytes of a version prefix. -/
theorem hasPrefix_eq (W out pre : List Byte) (n k : Nat) (hn : n ≤ W.length) (hk : k ≤ pre.length) :
    hasPrefix (over W out) n pre k = .ok (decide (pre.take k <+: W.take n)) := by
  rw [hasPrefix]
  have hkl : (pre.take k).length = k := by rw [List.length_take]; omega
  by_cases h : n ≥ k
  · rw [if_pos h, memeq, if_pos (by simp [over]; omega)]
    congr 1
    have ht : (over W out).take k = (W.take n).take k := by
      rw [over, List.take_append_of_le_length (by omega), List.take_take, Nat.min_eq_left h]
    rw [ht]
    by_cases e : (W.take n).take k = pre.take k
    · rw [e, beq_self_eq_true, eq_comm, decide_eq_true_eq, ← e]
      exact List.take_prefix _ _
    · rw [eq_comm, show ((W.take n).take k == pre.take k) = false from by simpa using e,
        decide_eq_false_iff_not]
      intro hp
      exact e (by rw [List.prefix_iff_eq_take.mp hp, hkl])
  · rw [if_neg h, eq_comm]
    congr 1
    rw [decide_eq_false_iff_not]
    intro hp
    have := hp.length_le
    rw [hkl, List.length_take] at this
    omega

theorem strip_eq (kind : Kind) (out : List Byte) (n k : Nat) (hk : k ≤ n) (hn : n ≤ out.length) :
    strip kind out n k = .ok ⟨kind, over ((out.take n).drop k) out, n - k⟩ := by
  rw [strip, memcpy, if_pos (by rw [List.length_drop]; omega), Res.ok_bind]
  have h : (out.drop k).take (n - k) = (out.take n).drop k := by rw [List.drop_take]
  rw [h, List.take_zero, List.nil_append, Nat.zero_add, over]
  have : ((out.take n).drop k).length = n - k := by rw [List.length_drop, List.length_take]; omega
  rw [this]
  rfl

/-- The whole decoder, in terms of the base58check specification. -/
theorem addressDecode_eq (host : Host) (cs : Bool) (stack s post out : List Byte) (outSize : Nat)
    (param : ChainParameters) (h0 : ∀ b ∈ s, b ≠ 0#8) (hr : Base58Spec.Readable cs s)
    (hsz : Base58Check.fromBase58CheckLength s.length ≤ outSize)
    (hfit : ∀ W, Base58Spec.decode? s = some W → W.length ≤ out.length)
    (hp : param.prefixPubkeyAddressSize ≤ param.prefixPubkeyAddress.length)
    (hq : param.prefixScriptAddressSize ≤ param.prefixScriptAddress.length) :
    addressDecode host cs stack (s ++ 0#8 :: post) s.length out outSize param =
      match Base58CheckSpec.decode? s with
      | some (c :: p) =>
        let W := (c :: p) ++ Base58CheckSpec.checksum (c :: p)
        if param.prefixPubkeyAddress.take param.prefixPubkeyAddressSize <+: c :: p then
          .ok ⟨.pubkey, over ((c :: p).drop param.prefixPubkeyAddressSize) (over W out),
            (c :: p).length - param.prefixPubkeyAddressSize⟩
        else if param.prefixScriptAddress.take param.prefixScriptAddressSize <+: c :: p then
          .ok ⟨.script, over ((c :: p).drop param.prefixScriptAddressSize) (over W out),
            (c :: p).length - param.prefixScriptAddressSize⟩
        else decodeBech32 cs stack (s ++ 0#8 :: post) s.length (over W out) outSize param
      | _ => decodeBech32 cs stack (s ++ 0#8 :: post) s.length
          (over ((Base58Spec.decode? s).getD []) out) outSize param := by
  have h := Base58Check.fromBase58Check_readable host cs s post out h0 hr hfit
  rw [addressDecode, if_neg (by omega), h, Base58CheckSpec.decode?]
  cases hd : Base58Spec.decode? s with
  | none => simp only [Res.ok_bind, Option.bind_none, Option.getD_none, over_nil]; rfl
  | some W =>
    simp only [Res.ok_bind, Option.bind_some, Option.getD_some]
    cases hc : Base58CheckSpec.check? W with
    | none => simp only; rfl
    | some p =>
      have hW := Base58Check.check?_some hc
      have hWl : p.length ≤ W.length := by rw [hW]; simp
      have hWo : W.length ≤ out.length := hfit W hd
      have hWt : W.take p.length = p := by rw [hW, List.take_left]
      have hot : (over W out).take p.length = p := by
        rw [over, List.take_append_of_le_length hWl, hWt]
      have hol : (over W out).length = out.length := over_length _ _ hWo
      cases p with
      | nil => rfl
      | cons c p =>
        simp only
        rw [if_pos (by simp), hasPrefix_eq _ _ _ _ _ hWl hp, hWt, Res.ok_bind]
        rw [← hW]
        by_cases hP : param.prefixPubkeyAddress.take param.prefixPubkeyAddressSize <+: c :: p
        · have hle := hP.length_le
          rw [List.length_take, Nat.min_eq_left hp] at hle
          rw [if_pos hP, if_pos (by simpa using hP), strip_eq _ _ _ _ hle (by rw [hol]; omega), hot]
        · rw [if_neg hP, if_neg (by simpa using hP), hasPrefix_eq _ _ _ _ _ hWl hq, hWt, Res.ok_bind]
          by_cases hQ : param.prefixScriptAddress.take param.prefixScriptAddressSize <+: c :: p
          · have hle := hQ.length_le
            rw [List.length_take, Nat.min_eq_left hq] at hle
            rw [if_pos hQ, if_pos (by simpa using hQ), strip_eq _ _ _ _ hle (by rw [hol]; omega), hot]
          · rw [if_neg hQ, if_neg (by simpa using hQ)]

end Address
