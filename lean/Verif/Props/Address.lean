import Verif.Lemmas.AddressPadding
/-! Property theorems C38–C44 about `address.c`. -/
open Address AddressSpec

/-- The parameter block the library offers for each network. -/
def AddressSpec.Network.param : Network → ChainParameters
  | .main => mainnet | .test => testnet | .reg => regnet

theorem net_pub (net : Network) : net.param.prefixPubkeyAddressSize ≤ net.param.prefixPubkeyAddress.length ∧
    net.param.prefixPubkeyAddressSize = 1 ∧
    net.param.prefixPubkeyAddress.take net.param.prefixPubkeyAddressSize = [net.pubkeyVersion] := by
  cases net <;> decide
theorem net_script (net : Network) : net.param.prefixScriptAddressSize ≤ net.param.prefixScriptAddress.length ∧
    net.param.prefixScriptAddressSize = 1 ∧
    net.param.prefixScriptAddress.take net.param.prefixScriptAddressSize = [net.scriptVersion] := by
  cases net <;> decide
theorem net_hrp (net : Network) : net.param.bech32HrpSize ≤ net.param.bech32Hrp.length ∧
    net.param.bech32Hrp.take net.param.bech32HrpSize = net.hrp ∧ net.hrp.length ≤ 4 ∧ net.hrp ≠ [] ∧
    net.hrp.head? ≠ some 49#8 ∧ (∀ c ∈ net.hrp, 33 ≤ c.toNat ∧ c.toNat ≤ 126) ∧
    ∀ c ∈ net.hrp, ¬ Bech32Spec.isUpper c := by
  cases net <;> decide

theorem base58_decode (v : Byte) (hash : List Byte) :
    Base58Spec.decode? (base58 v hash) = some (v :: hash ++ Base58CheckSpec.checksum (v :: hash)) :=
  decode_encode58 _

theorem base58_decodeCheck (v : Byte) (hash : List Byte) :
    Base58CheckSpec.decode? (base58 v hash) = some (v :: hash) := by
  rw [Base58CheckSpec.decode?, base58_decode, Option.bind_some, Base58Check.check?_append]

theorem base58_length_le (v : Byte) (hash : List Byte) :
    (base58 v hash).length ≤ Base58Check.toBase58CheckLength hash.length 1 := by
  have := encodeCheck_length_le (v :: hash)
  rw [Base58Check.toBase58CheckLength]
  rw [List.length_cons] at this
  rwa [show hash.length + 4 + 1 = hash.length + 1 + 4 by omega]

theorem base58_ne_nil (v : Byte) (hash : List Byte) : (base58 v hash).length ≠ 0 := by
  intro h
  have h1 := base58_decode v hash
  rw [List.length_eq_zero_iff.mp h] at h1
  simp [Base58Spec.decode?, Base58Spec.bytes, Positional.value, Positional.digits_zero] at h1

/-- The base58 encoders, as one statement used by C38 and C41. -/
theorem toBase58Check_address (host : Host) (hash out : List Byte) (pre : List Byte) (v : Byte)
    (hp : 1 ≤ pre.length) (hpre : pre.take 1 = [v]) (hsz : hash.length ≤ 999999)
    (ho : Base58Check.toBase58CheckLength hash.length 1 ≤ out.length) :
    Base58Check.toBase58Check host hash hash.length pre 1 out =
      .ok (over (base58 v hash) out, (base58 v hash).length) := by
  have hle := base58_length_le v hash
  have h := Base58Check.toBase58Check_eq host hash hash.length pre 1 out (by omega) hp (by omega)
    (by
      rw [hpre, List.take_length]
      exact Nat.le_trans hle ho)
  rw [hpre, List.take_length] at h
  exact h

/-- C41, base58 encoders: 0 and an unchanged buffer exactly when `out_size` is below the required
size; otherwise the address text is written and its length, at most `out_size`, returned. -/
theorem C41_base58_encoders (net : Network) (host : Host) (hash out : List Byte) (outSize : Nat)
    (hsz : hash.length ≤ 999999) (ho : outSize ≤ out.length) :
    (toAddressPubkey host hash hash.length out outSize net.param =
      .ok (if outSize < Base58Check.toBase58CheckLength hash.length 1 then (out, 0)
        else (over (base58 net.pubkeyVersion hash) out, (base58 net.pubkeyVersion hash).length))) ∧
    (toAddressScript host hash hash.length out outSize net.param =
      .ok (if outSize < Base58Check.toBase58CheckLength hash.length 1 then (out, 0)
        else (over (base58 net.scriptVersion hash) out, (base58 net.scriptVersion hash).length))) ∧
    ∀ v, 0 < (base58 v hash).length ∧
      (base58 v hash).length ≤ Base58Check.toBase58CheckLength hash.length 1 := by
  obtain ⟨p1, p2, p3⟩ := net_pub net
  obtain ⟨q1, q2, q3⟩ := net_script net
  rw [p2] at p1 p3
  rw [q2] at q1 q3
  refine ⟨?_, ?_, fun v => ⟨by have := base58_ne_nil v hash; omega, base58_length_le v hash⟩⟩
  · rw [toAddressPubkey, p2]
    split
    · rfl
    · exact toBase58Check_address host hash out _ _ p1 p3 hsz (by omega)
  · rw [toAddressScript, q2]
    split
    · rfl
    · exact toBase58Check_address host hash out _ _ q1 q3 hsz (by omega)

example : toAddressPubkey .little [1, 2, 3] 3 (List.replicate 13 7) 12 testnet =
      .ok (List.replicate 13 7, 0) ∧
    toAddressPubkey .little [1, 2, 3] 3 (List.replicate 13 7) 13 testnet =
      .ok (cstr "KZst2beNvAJ" ++ [7, 7], 11) := by decide +kernel

/-- C41, witness v0 encoders.  With a program of the right size: 0 and nothing written exactly when
`out_size` is too small; otherwise the BIP 173 text and its length.  With another size the call is
stopped by `assert`, or returns 0 without writing if asserts are compiled out. -/
theorem C41_witness_v0_encoders (net : Network) (nd : Bool) (prog out : List Byte) (outSize : Nat)
    (ho : outSize ≤ out.length) :
    (toAddressWitnessV0Keyhash nd prog prog.length out outSize net.param =
      if prog.length = 20 then
        .ok (if outSize < (witness net.hrp 0#8 prog).length then (out, 0)
          else (over (witness net.hrp 0#8 prog) out, (witness net.hrp 0#8 prog).length))
      else if nd then .ok (out, 0) else .abort) ∧
    (toAddressWitnessV0Scripthash nd prog prog.length out outSize net.param =
      if prog.length = 32 then
        .ok (if outSize < (witness net.hrp 0#8 prog).length then (out, 0)
          else (over (witness net.hrp 0#8 prog) out, (witness net.hrp 0#8 prog).length))
      else if nd then .ok (out, 0) else .abort) := by
  obtain ⟨h1, h2, -⟩ := net_hrp net
  constructor
  · rw [toAddressWitnessV0Keyhash]
    by_cases h : prog.length = 20
    · have := witnessEncode_eq (List.replicate 64 0xAA#8) 0#8 prog out outSize net.param (by decide)
        (by rw [h]; decide) h1 ho
      rw [h2] at this
      rw [if_pos h, if_neg (by simpa using h), this, show assertNd nd (prog.length == 20) = .ok () from by
        rw [h]; cases nd <;> rfl]
      rfl
    · have hb : (prog.length == 20) = false := by simpa using h
      rw [if_neg h, hb]
      cases nd
      · rfl
      · simp [assertNd, h]
  · rw [toAddressWitnessV0Scripthash]
    by_cases h : prog.length = 32
    · have := witnessEncode_eq (List.replicate 64 0xAA#8) 0#8 prog out outSize net.param (by decide)
        (by rw [h]; decide) h1 ho
      rw [h2] at this
      rw [if_pos h, if_neg (by simpa using h), this, show assertNd nd (prog.length == 32) = .ok () from by
        rw [h]; cases nd <;> rfl]
      rfl
    · have hb : (prog.length == 32) = false := by simpa using h
      rw [if_neg h, hb]
      cases nd
      · rfl
      · simp [assertNd, h]

/-- C41, encoder for other witness versions: 0 and nothing written exactly when the argument is not a
version 1..16 followed by 2..40 bytes, or `out_size` is too small. -/
theorem C41_witness_unknown_encoder (net : Network) (vp out : List Byte) (outSize : Nat)
    (ho : outSize ≤ out.length) :
    (vp.length < 3 ∨ vp.length > 41 → toAddressWitnessUnknown vp vp.length out outSize net.param = .ok (out, 0)) ∧
    ∀ v prog, vp = v :: prog → 2 ≤ prog.length → prog.length ≤ 40 →
      toAddressWitnessUnknown vp vp.length out outSize net.param =
        .ok (if 1 ≤ v.toNat ∧ v.toNat ≤ 16 ∧ (witness net.hrp v prog).length ≤ outSize
          then (over (witness net.hrp v prog) out, (witness net.hrp v prog).length) else (out, 0)) := by
  obtain ⟨h1, h2, -⟩ := net_hrp net
  constructor
  · intro h
    rw [toAddressWitnessUnknown, if_pos h]; rfl
  · rintro v prog rfl hl hu
    rw [toAddressWitnessUnknown, if_neg (by rw [List.length_cons]; omega)]
    simp only [rd, List.getElem?_cons_zero, Res.ok_bind, List.drop_succ_cons, List.drop_zero,
      List.length_cons, Nat.add_sub_cancel]
    by_cases hv : v.toNat < 1 ∨ v.toNat > 16
    · rw [if_pos hv, if_neg (by omega)]; rfl
    · have := witnessEncode_eq (List.replicate 128 0xAA#8) v prog out outSize net.param (by omega)
        (by rw [List.length_replicate]; omega) h1 ho
      rw [h2] at this
      rw [if_neg hv]
      refine this.trans (congrArg Res.ok ?_)
      by_cases hc : outSize < (witness net.hrp v prog).length
      · rw [if_pos hc, if_neg (by omega)]
      · rw [if_neg hc, if_pos (by omega)]

/-- The sizes in C41: the length of a witness address. -/
theorem C41_witness_length (net : Network) (v : Byte) (prog : List Byte) :
    (witness net.hrp v prog).length = net.hrp.length + 1 + (1 + (8 * prog.length + 4) / 5) + 6 := by
  rw [witness_length]; omega

example : toAddressWitnessUnknown [17, 2, 3] 3 (List.replicate 90 7) 90 mainnet = .ok (List.replicate 90 7, 0) ∧
    toAddressWitnessUnknown [16, 2, 3] 3 (List.replicate 14 7) 13 mainnet = .ok (List.replicate 14 7, 0) ∧
    toAddressWitnessUnknown [16, 0x75, 0x1e] 3 (List.replicate 15 7) 15 mainnet =
      .ok (cstr "bc1sw50qa3jx3s" ++ [7], 14) := by decide +kernel

/-- C38. A P2PKH address made by the encoder decodes to the type "pubkey" and the hash, on every network.
(`out` is the caller's buffer; it has to hold the 4 checksum bytes, too.) -/
theorem C38_pubkey_roundtrip (net : Network) (host : Host) (cs : Bool) (stack hash str post out : List Byte)
    (hsz : hash.length ≤ 999999) (hs : Base58Check.toBase58CheckLength hash.length 1 ≤ str.length)
    (ho : hash.length + 5 ≤ out.length) :
    ∃ text, toAddressPubkey host hash hash.length str str.length net.param = .ok (over text str, text.length) ∧
      (Base58Check.fromBase58CheckLength text.length ≤ out.length →
      ∃ mem, addressDecode host cs stack (text ++ 0#8 :: post) text.length out out.length net.param =
        .ok ⟨.pubkey, mem, hash.length⟩ ∧ mem.take hash.length = hash) := by
  refine ⟨base58 net.pubkeyVersion hash, ?_, ?_⟩
  · rw [(C41_base58_encoders net host hash str str.length hsz (Nat.le_refl _)).1, if_neg (by omega)]
  · intro hfl
    obtain ⟨p1, p2, p3⟩ := net_pub net
    have hle := base58_length_le net.pubkeyVersion hash
    rw [Base58Check.toBase58CheckLength, Base58.toBase58Length] at hle
    have h := addressDecode_eq host cs stack (base58 net.pubkeyVersion hash) post out out.length net.param
      (fun b hb => (encode58_chars _ b hb).2.1) (Base58Check.readable_of _ _ (fun _ b hb => (encode58_chars _ b hb).2.2.1) (by omega)) hfl
      (by
        intro W hW
        rw [base58_decode] at hW
        injection hW with hW
        rw [← hW, List.length_append, Base58Check.checksum_length, List.length_cons]; omega)
      p1 (net_script net).1
    rw [base58_decodeCheck] at h
    simp only [p3] at h
    rw [if_pos (by simp), p2] at h
    refine ⟨_, h, ?_⟩
    simp [over]

/-- C38. The same for P2SH addresses. -/
theorem C38_script_roundtrip (net : Network) (host : Host) (cs : Bool) (stack hash str post out : List Byte)
    (hsz : hash.length ≤ 999999) (hs : Base58Check.toBase58CheckLength hash.length 1 ≤ str.length)
    (ho : hash.length + 5 ≤ out.length) :
    ∃ text, toAddressScript host hash hash.length str str.length net.param = .ok (over text str, text.length) ∧
      (Base58Check.fromBase58CheckLength text.length ≤ out.length →
      ∃ mem, addressDecode host cs stack (text ++ 0#8 :: post) text.length out out.length net.param =
        .ok ⟨.script, mem, hash.length⟩ ∧ mem.take hash.length = hash) := by
  refine ⟨base58 net.scriptVersion hash, ?_, ?_⟩
  · rw [(C41_base58_encoders net host hash str str.length hsz (Nat.le_refl _)).2.1, if_neg (by omega)]
  · intro hfl
    obtain ⟨p1, p2, p3⟩ := net_pub net
    obtain ⟨q1, q2, q3⟩ := net_script net
    have hle := base58_length_le net.scriptVersion hash
    rw [Base58Check.toBase58CheckLength, Base58.toBase58Length] at hle
    have h := addressDecode_eq host cs stack (base58 net.scriptVersion hash) post out out.length net.param
      (fun b hb => (encode58_chars _ b hb).2.1) (Base58Check.readable_of _ _ (fun _ b hb => (encode58_chars _ b hb).2.2.1) (by omega)) hfl
      (by
        intro W hW
        rw [base58_decode] at hW
        injection hW with hW
        rw [← hW, List.length_append, Base58Check.checksum_length, List.length_cons]; omega)
      p1 q1
    rw [base58_decodeCheck] at h
    simp only [p3, q3] at h
    rw [if_neg (by cases net <;> simp [Network.pubkeyVersion, Network.scriptVersion]), if_pos (by simp), q2] at h
    refine ⟨_, h, ?_⟩
    simp [over]

/-- C38 on a concrete address (the buffer sizes meet the hypotheses). -/
example : addressDecode .little true [] (cstr "1BvBMSEYstWetqTFn5Au4m4GFg7xJaNVN2" ++ [0]) 34
    (List.replicate 26 7) 26 mainnet = .ok ⟨.pubkey, [119, 191, 242, 12, 96, 229, 34, 223, 170, 51, 80, 195,
      155, 3, 10, 93, 0, 78, 131, 154, 154, 244, 21, 118, 107, 7], 20⟩ ∧
    20 + 5 ≤ (List.replicate 26 7).length ∧ Base58Check.fromBase58CheckLength 34 ≤ 26 := by decide +kernel

theorem isPrefix_one (v c : Byte) (p : List Byte) : [v] <+: c :: p ↔ c = v := by
  constructor
  · rintro ⟨t, h⟩
    simp only [List.cons_append, List.nil_append, List.cons.injEq] at h
    exact h.1.symm
  · rintro rfl; simp

/-- A witness address read as base58 by the decoder of network `net'` is not mistaken for a base58
address, except where the leading byte alone does not exclude it. -/
theorem witness_no_base58 (net net' : Network) (v : Byte) (prog p : List Byte) (c : Byte) (hv : v.toNat ≤ 16)
    (h2 : 2 ≤ prog.length) (h40 : prog.length ≤ 40)
    (hmix : net' = .main → (net = .main ∧ (prog.length = 23 ∨ prog.length = 32)) ∨
        (net = .test ∧ prog.length = 35) ∨ (net = .reg ∧ prog.length = 31) →
      ∀ p, Base58CheckSpec.decode? (witness net.hrp v prog) ≠ some (0x05#8 :: p))
    (h : Base58CheckSpec.decode? (witness net.hrp v prog) = some (c :: p)) :
    c ≠ net'.pubkeyVersion ∧ c ≠ net'.scriptVersion := by
  obtain ⟨-, -, n4, n5, n6, n7, -⟩ := net_hrp net
  have hW : ∃ W, Base58Spec.decode? (witness net.hrp v prog) = some (c :: W) := by
    rw [Base58CheckSpec.decode?] at h
    cases hd : Base58Spec.decode? (witness net.hrp v prog) with
    | none => rw [hd] at h; simp at h
    | some W =>
      rw [hd, Option.bind_some] at h
      exact ⟨p ++ Base58CheckSpec.checksum (c :: p), by rw [Base58Check.check?_some h]; rfl⟩
  obtain ⟨W, hW⟩ := hW
  obtain ⟨hc0, hcl⟩ := witness_clash net.hrp v c prog W (by omega) n7 n5 n6 (by omega) hW
  have hm := clash_main ⟨v.toNat, by omega⟩ ⟨prog.length, by omega⟩
  have ht := clash_test ⟨v.toNat, by omega⟩ ⟨prog.length, by omega⟩
  simp only [BitVec.ofNat_toNat, BitVec.setWidth_eq] at hm ht
  have h5 : net' = .main → c ≠ 0x05#8 := by
    rintro hn rfl
    refine hmix hn ?_ p h
    rw [show (5#8 : Byte).toNat = 5 from rfl] at hcl
    cases net
    · have := hm.1 hcl; simp; omega
    · have := hm.2.1 hcl; simp; omega
    · have := hm.2.2 hcl; simp; omega
  have h6 : c ≠ 0x6F#8 := by
    rintro rfl
    rw [show (0x6F#8 : Byte).toNat = 0x6F from rfl] at hcl
    have : prog.length < 2 := ht (by
      cases net
      · exact .inl hcl
      · exact .inr (.inr (.inl hcl))
      · exact .inr (.inr (.inr (.inr (.inl hcl)))))
    omega
  have hC : c ≠ 0xC4#8 := by
    rintro rfl
    rw [show (0xC4#8 : Byte).toNat = 0xC4 from rfl] at hcl
    have : prog.length < 2 := ht (by
      cases net
      · exact .inr (.inl hcl)
      · exact .inr (.inr (.inr (.inl hcl)))
      · exact .inr (.inr (.inr (.inr (.inr hcl)))))
    omega
  cases net'
  · exact ⟨hc0, h5 rfl⟩
  · exact ⟨h6, hC⟩
  · exact ⟨h6, hC⟩

/-- A witness address of network `net` reaches the Bech32 branch of the decoder for `net'`. -/
theorem witness_to_bech32 (net net' : Network) (host : Host) (cs : Bool) (stack : List Byte) (v : Byte)
    (prog post out : List Byte) (hv : v.toNat ≤ 16) (h2 : 2 ≤ prog.length) (h40 : prog.length ≤ 40)
    (hmix : net' = .main → (net = .main ∧ (prog.length = 23 ∨ prog.length = 32)) ∨
        (net = .test ∧ prog.length = 35) ∨ (net = .reg ∧ prog.length = 31) →
      ∀ p, Base58CheckSpec.decode? (witness net.hrp v prog) ≠ some (0x05#8 :: p))
    (ho : Base58Check.fromBase58CheckLength (witness net.hrp v prog).length ≤ out.length) :
    ∃ out', out'.length = out.length ∧
      addressDecode host cs stack (witness net.hrp v prog ++ 0#8 :: post) (witness net.hrp v prog).length
        out out.length net'.param =
      decodeBech32 cs stack (witness net.hrp v prog ++ 0#8 :: post) (witness net.hrp v prog).length
        out' out.length net'.param := by
  obtain ⟨-, -, n4, n5, n6, n7, -⟩ := net_hrp net
  obtain ⟨p1, p2, p3⟩ := net_pub net'
  obtain ⟨q1, q2, q3⟩ := net_script net'
  have hch := witness_chars net.hrp v prog (by omega) n7
  have hwl := witness_length net.hrp v prog
  have hfit : ∀ W, Base58Spec.decode? (witness net.hrp v prog) = some W → W.length ≤ out.length := by
    intro W hW
    have hle := decode58_length_le _ _ hW
    have hno : ((witness net.hrp v prog).dropWhile Base58Spec.isSpace).takeWhile (· = 49#8) = [] := by
      cases hh : witness net.hrp v prog with
      | nil => rfl
      | cons c r =>
        have hc : c ≠ 49#8 := by
          rintro rfl
          apply n6
          rw [witness, Bech32Spec.encode] at hh
          cases hn : net.hrp with
          | nil => exact absurd hn n5
          | cons a b =>
            rw [hn] at hh
            simp only [List.cons_append, List.cons.injEq] at hh
            rw [List.head?_cons, hh.1]
        rw [List.dropWhile_cons_of_neg (by rw [not_space c (hch c (by rw [hh]; simp))]; simp),
          List.takeWhile_cons_of_neg (by simpa using hc)]
    rw [hno] at hle
    simp only [List.length_nil, Nat.sub_zero, Nat.zero_add] at hle
    rw [Base58Check.fromBase58CheckLength, Base58.fromBase58Length] at ho
    omega
  have h := addressDecode_eq host cs stack (witness net.hrp v prog) post out out.length net'.param
    (by intro b hb h0; have := hch b hb; rw [h0] at this; simp at this)
    (Base58Check.readable_of _ _ (by intro _ b hb; have := hch b hb; omega) (by omega)) ho hfit p1 q1
  have hnil : ∀ W, Base58CheckSpec.check? W = some [] → (W : List Byte).length = 4 := by
    intro W hW
    rw [Base58Check.check?_some hW, List.nil_append, Base58Check.checksum_length]
  cases hd : Base58CheckSpec.decode? (witness net.hrp v prog) with
  | none =>
    rw [hd] at h
    refine ⟨_, ?_, h⟩
    cases hb : Base58Spec.decode? (witness net.hrp v prog) with
    | none => simp [over]
    | some W => exact over_length _ _ (hfit W hb)
  | some cp =>
    rw [hd] at h
    cases cp with
    | nil =>
      refine ⟨_, ?_, h⟩
      cases hb : Base58Spec.decode? (witness net.hrp v prog) with
      | none => simp [over]
      | some W => exact over_length _ _ (hfit W hb)
    | cons c p =>
      obtain ⟨hc1, hc2⟩ := witness_no_base58 net net' v prog p c hv h2 h40 hmix hd
      simp only [p3, q3, isPrefix_one, if_neg hc1, if_neg hc2] at h
      refine ⟨_, ?_, h⟩
      apply over_length
      have hd' := hd
      rw [Base58CheckSpec.decode?] at hd'
      cases hb : Base58Spec.decode? (witness net.hrp v prog) with
      | none => rw [hb] at hd'; simp at hd'
      | some W =>
        rw [hb, Option.bind_some] at hd'
        rw [← Base58Check.check?_some hd']
        exact hfit W hb

theorem witness_valid (net : Network) (v : Byte) (prog : List Byte) (hv : v.toNat ≤ 16)
    (h40 : prog.length ≤ 40) :
    Bech32Spec.Valid (witness net.hrp v prog) net.hrp (v :: Base32Spec.encodeRaw prog) := by
  obtain ⟨-, -, n4, n5, n6, n7, n8⟩ := net_hrp net
  refine valid_encode n5 n7 n8 ?_ ?_
  · intro x hx
    rcases List.mem_cons.mp hx with h | h
    · rw [h]; omega
    · exact encodeRaw_lt prog x h
  · rw [List.length_cons, encodeRaw_length]; omega

/-- Decoding a witness address made for the same network. -/
theorem witness_decode (net : Network) (host : Host) (cs : Bool) (stack : List Byte) (v : Byte)
    (prog post out : List Byte) (hv : v.toNat ≤ 16) (h2 : 2 ≤ prog.length) (h40 : prog.length ≤ 40)
    (hst : stack.length = 128)
    (hnul : NulFirst (Base32Spec.encodeRaw prog ++ stack.drop (1 + (8 * prog.length + 4) / 5)))
    (hmix : net = .main → prog.length = 23 ∨ prog.length = 32 →
      ∀ p, Base58CheckSpec.decode? (witness net.hrp v prog) ≠ some (0x05#8 :: p))
    (ho : Base58Check.fromBase58CheckLength (witness net.hrp v prog).length ≤ out.length) :
    ∃ mem, addressDecode host cs stack (witness net.hrp v prog ++ 0#8 :: post)
        (witness net.hrp v prog).length out out.length net.param =
      .ok (if v = 0#8 then
        ⟨if prog.length = 20 then .witnessV0Keyhash else if prog.length = 32 then .witnessV0Scripthash
          else .bad, mem, prog.length⟩
      else ⟨.witnessUnknown, mem, prog.length + 1⟩) ∧
      mem.take (if v = 0#8 then prog.length else prog.length + 1) =
        if v = 0#8 then prog else v :: prog := by
  obtain ⟨n1, n2, n4, n5, n6, n7, n8⟩ := net_hrp net
  obtain ⟨out', ho', hdec⟩ := witness_to_bech32 net net host cs stack v prog post out hv h2 h40
    (by
      intro hm hor
      apply hmix hm
      rcases hor with h | h | h
      · exact h.2
      · rw [hm] at h; simp at h
      · rw [hm] at h; simp at h) ho
  have hwl := witness_length net.hrp v prog
  rw [Base58Check.fromBase58CheckLength, Base58.fromBase58Length] at ho
  have hval := witness_valid net v prog hv h40
  have hbuf : over (v :: Base32Spec.encodeRaw prog) stack =
      v :: Base32Spec.encodeRaw prog ++ stack.drop (1 + (8 * prog.length + 4) / 5) := by
    rw [over, List.length_cons, encodeRaw_length, Nat.add_comm 1]
  rw [decodeBech32_valid hval cs stack post out' out.length net.param hst (by simp) (by omega) n1,
    if_pos n2.symm, hbuf, List.length_cons,
    decodeWitness_eq cs v prog _ out' out.length hnul (by omega) (by omega)] at hdec
  rw [hdec]
  by_cases hv0 : v = 0#8
  · simp only [if_pos hv0]
    exact ⟨_, rfl, by simp [over]⟩
  · simp only [if_neg hv0]
    rw [if_neg (by omega)]
    exact ⟨_, rfl, by simp [over]⟩

/-- C39, key hashes, the part that holds: the address made by the encoder decodes to the type
"witness v0 key hash" and the program, on every network (so it is never taken for a base58 address),
provided the decoder's 128-byte stack buffer, whose contents after the 33 decoded values are
indeterminate, has a NUL before any `'='` (or the program contains a zero group).
Missing: independence of the indeterminate bytes, see `C39_violated_by_stack_contents`. -/
theorem C39_keyhash_roundtrip_partial (net : Network) (nd : Bool) (host : Host) (cs : Bool)
    (stack prog str post out : List Byte) (h20 : prog.length = 20) (hs : 44 ≤ str.length)
    (hst : stack.length = 128) (hnul : NulFirst (Base32Spec.encodeRaw prog ++ stack.drop 33)) :
    ∃ text, toAddressWitnessV0Keyhash nd prog 20 str str.length net.param =
        .ok (over text str, text.length) ∧ text.length ≤ 44 ∧
      (Base58Check.fromBase58CheckLength text.length ≤ out.length →
      ∃ mem, addressDecode host cs stack (text ++ 0#8 :: post) text.length out out.length net.param =
        .ok ⟨.witnessV0Keyhash, mem, 20⟩ ∧ mem.take 20 = prog) := by
  have hwl := witness_length net.hrp 0#8 prog
  have n4 := (net_hrp net).2.2.1
  rw [h20] at hwl
  refine ⟨witness net.hrp 0#8 prog, ?_, by omega, ?_⟩
  · have := (C41_witness_v0_encoders net nd prog str str.length (Nat.le_refl _)).1
    rw [if_pos h20, if_neg (by omega)] at this
    rw [← h20]; exact this
  · intro ho
    obtain ⟨mem, h1, h2⟩ := witness_decode net host cs stack 0#8 prog post out (by decide) (by omega) (by omega)
      hst (by rw [h20]; exact hnul) (by intro _ h; omega) ho
    simp only [if_true] at h1 h2
    rw [if_pos h20, h20] at h1
    rw [h20] at h2
    exact ⟨mem, h1, h2⟩

/-- C39, script hashes, the part that holds: as for key hashes; on mainnet the text must moreover not be
readable as base58check with version byte 5 (only its 32-bit checksum excludes this).
Missing: that case, and independence of the indeterminate bytes. -/
theorem C39_scripthash_roundtrip_partial (net : Network) (nd : Bool) (host : Host) (cs : Bool)
    (stack prog str post out : List Byte) (h32 : prog.length = 32) (hs : 64 ≤ str.length)
    (hst : stack.length = 128) (hnul : NulFirst (Base32Spec.encodeRaw prog ++ stack.drop 53))
    (hmix : net = .main →
      ∀ p, Base58CheckSpec.decode? (witness net.hrp 0#8 prog) ≠ some (0x05#8 :: p)) :
    ∃ text, toAddressWitnessV0Scripthash nd prog 32 str str.length net.param =
        .ok (over text str, text.length) ∧ text.length ≤ 64 ∧
      (Base58Check.fromBase58CheckLength text.length ≤ out.length →
      ∃ mem, addressDecode host cs stack (text ++ 0#8 :: post) text.length out out.length net.param =
        .ok ⟨.witnessV0Scripthash, mem, 32⟩ ∧ mem.take 32 = prog) := by
  have hwl := witness_length net.hrp 0#8 prog
  have n4 := (net_hrp net).2.2.1
  rw [h32] at hwl
  refine ⟨witness net.hrp 0#8 prog, ?_, by omega, ?_⟩
  · have := (C41_witness_v0_encoders net nd prog str str.length (Nat.le_refl _)).2
    rw [if_pos h32, if_neg (by omega)] at this
    rw [← h32]; exact this
  · intro ho
    obtain ⟨mem, h1, h2⟩ := witness_decode net host cs stack 0#8 prog post out (by decide) (by omega) (by omega)
      hst (by rw [h32]; exact hnul) (fun hm _ => hmix hm) ho
    simp only [if_true] at h1 h2
    rw [if_neg (by omega), if_pos h32, h32] at h1
    rw [h32] at h2
    exact ⟨mem, h1, h2⟩

/-- C40, the part that holds: under the same provisos an address of version 1..16 decodes to version and
program.
Missing: the provisos. -/
theorem C40_witness_unknown_roundtrip_partial (net : Network) (host : Host) (cs : Bool)
    (stack : List Byte) (v : Byte) (prog str post out : List Byte) (hv : 1 ≤ v.toNat ∧ v.toNat ≤ 16)
    (hp : 2 ≤ prog.length ∧ prog.length ≤ 40)
    (hs : net.hrp.length + 1 + (1 + (8 * prog.length + 4) / 5) + 6 ≤ str.length)
    (hst : stack.length = 128)
    (hnul : NulFirst (Base32Spec.encodeRaw prog ++ stack.drop (1 + (8 * prog.length + 4) / 5)))
    (hmix : net = .main → prog.length = 23 ∨ prog.length = 32 →
      ∀ p, Base58CheckSpec.decode? (witness net.hrp v prog) ≠ some (0x05#8 :: p)) :
    ∃ text, toAddressWitnessUnknown (v :: prog) (prog.length + 1) str str.length net.param =
        .ok (over text str, text.length) ∧
      (Base58Check.fromBase58CheckLength text.length ≤ out.length →
      ∃ mem, addressDecode host cs stack (text ++ 0#8 :: post) text.length out out.length net.param =
        .ok ⟨.witnessUnknown, mem, prog.length + 1⟩ ∧ mem.take (prog.length + 1) = v :: prog) := by
  have hwl := C41_witness_length net v prog
  refine ⟨witness net.hrp v prog, ?_, ?_⟩
  · have := (C41_witness_unknown_encoder net (v :: prog) str str.length (Nat.le_refl _)).2 v prog rfl hp.1 hp.2
    rw [if_pos ⟨hv.1, hv.2, by omega⟩] at this
    exact this
  · intro ho
    have hv0 : v ≠ 0#8 := by rintro rfl; simp at hv
    obtain ⟨mem, h1, h2⟩ := witness_decode net host cs stack v prog post out hv.2 hp.1 hp.2
      hst hnul hmix ho
    simp only [if_neg hv0] at h1 h2
    exact ⟨mem, h1, h2⟩

/-- Mainnet on one side, testnet or regtest (which share their base58 version bytes) on the other. -/
def Foreign (net net' : Network) : Prop := (net = .main ∧ net' ≠ .main) ∨ (net ≠ .main ∧ net' = .main)

/-- C42, base58 addresses: the address of a 20-byte hash made for one network is rejected by the other
side's decoder, whatever the contents of its stack. -/
theorem C42_base58_networks (net net' : Network) (hf : Foreign net net') (script : Bool) (host : Host)
    (cs : Bool) (stack hash str post out : List Byte) (h20 : hash.length = 20) (hst : stack.length = 128)
    (hs : 36 ≤ str.length) (ho : 28 ≤ out.length) :
    ∃ text, (if script then toAddressScript host hash 20 str str.length net.param
        else toAddressPubkey host hash 20 str str.length net.param) = .ok (over text str, text.length) ∧
      ∃ mem n, addressDecode host cs stack (text ++ 0#8 :: post) text.length out out.length net'.param =
        .ok ⟨.bad, mem, n⟩ := by
  obtain ⟨v, hv⟩ : ∃ v, v = if script then net.scriptVersion else net.pubkeyVersion := ⟨_, rfl⟩
  have hv4 : v = 0#8 ∨ v = 5#8 ∨ v = 0x6F#8 ∨ v = 0xC4#8 := by
    rw [hv]; cases script <;> cases net <;> simp [Network.scriptVersion, Network.pubkeyVersion]
  have hvne : v ≠ net'.pubkeyVersion ∧ v ≠ net'.scriptVersion := by
    rw [hv]
    cases script <;> cases net <;> cases net' <;> first | decide | (simp [Foreign] at hf)
  have hle := base58_length_le v hash
  have hle35 : (base58 v hash).length ≤ 36 := by
    rw [h20] at hle; exact hle
  refine ⟨base58 v hash, ?_, ?_⟩
  · have hc : Base58Check.toBase58CheckLength hash.length 1 = 36 := by rw [h20]; rfl
    have := C41_base58_encoders net host hash str str.length (by omega) (Nat.le_refl _)
    rw [hc, if_neg (by omega), if_neg (by omega), h20] at this
    cases script
    · rw [hv]; exact this.1
    · rw [hv]; exact this.2.1
  · obtain ⟨p1, p2, p3⟩ := net_pub net'
    obtain ⟨q1, q2, q3⟩ := net_script net'
    obtain ⟨n1, n2, -⟩ := net_hrp net'
    have h := addressDecode_eq host cs stack (base58 v hash) post out out.length net'.param
      (fun b hb => (encode58_chars _ b hb).2.1) (Base58Check.readable_of _ _ (fun _ b hb => (encode58_chars _ b hb).2.2.1) (by omega))
      (by rw [Base58Check.fromBase58CheckLength, Base58.fromBase58Length]; omega)
      (by
        intro W hW
        rw [base58_decode] at hW
        injection hW with hW
        rw [← hW, List.length_append, Base58Check.checksum_length, List.length_cons]; omega)
      p1 q1
    rw [base58_decodeCheck] at h
    simp only [p3, q3, isPrefix_one, if_neg hvne.1, if_neg hvne.2] at h
    rw [h]
    rcases decodeBech32_any (base58 v hash) (0#8 :: post) cs stack
      (over (v :: hash ++ Base58CheckSpec.checksum (v :: hash)) out) out.length net'.param hst (by simp) n1 with hb | ⟨D, hD, -⟩
    · exact ⟨_, _, hb⟩
    · exfalso
      rw [n2] at hD
      obtain ⟨c, r, hc, hc1, hc2⟩ := base58_head v hash h20 hv4
      have hlow := (valid_lower_eq hD).1
      rw [hc, List.map_cons, Bech32Spec.encode] at hlow
      cases net' <;> simp only [Network.hrp, List.cons_append, List.cons.injEq] at hlow
      · exact hc1 hlow.1
      · exact hc2 hlow.1
      · exact hc1 hlow.1

/-- C42, witness v0 addresses (both sizes) are rejected by every other network's decoder. -/
theorem C42_witness_v0_networks (net net' : Network) (hne : net ≠ net') (host : Host) (cs : Bool)
    (stack prog post out : List Byte) (hp : prog.length = 20 ∨ prog.length = 32)
    (hst : stack.length = 128)
    (ho : Base58Check.fromBase58CheckLength (witness net.hrp 0#8 prog).length ≤ out.length) :
    ∃ mem n, addressDecode host cs stack (witness net.hrp 0#8 prog ++ 0#8 :: post)
      (witness net.hrp 0#8 prog).length out out.length net'.param = .ok ⟨.bad, mem, n⟩ := by
  obtain ⟨out', ho', hdec⟩ := witness_to_bech32 net net' host cs stack 0#8 prog post out (by decide)
    (by omega) (by omega)
    (by
      intro hm hor
      rcases hor with h | h | h
      · exact absurd (h.1.trans hm.symm) hne
      · omega
      · omega) ho
  have hval := witness_valid net 0#8 prog (by decide) (by omega)
  have n4 := (net_hrp net).2.2.1
  obtain ⟨n1, n2, -⟩ := net_hrp net'
  rw [decodeBech32_valid hval cs stack post out' out.length net'.param hst (by simp) (by omega) n1, n2,
    if_neg (by intro h; apply hne; cases net <;> cases net' <;> first | rfl | simp [Network.hrp] at h)] at hdec
  exact ⟨_, _, hdec⟩

/-- C42, witness versions 1..16, the part that holds: rejected by every other network's decoder, except
that a 35-byte testnet or 31-byte regtest program may give a text which is also base58check with version
byte 5 and is then taken for a mainnet script address.
Missing: that case. -/
theorem C42_witness_unknown_networks_partial (net net' : Network) (hne : net ≠ net') (host : Host)
    (cs : Bool) (stack : List Byte) (v : Byte) (prog post out : List Byte)
    (hv : 1 ≤ v.toNat ∧ v.toNat ≤ 16) (hp : 2 ≤ prog.length ∧ prog.length ≤ 40)
    (hst : stack.length = 128)
    (hmix : net' = .main → (net = .test ∧ prog.length = 35) ∨ (net = .reg ∧ prog.length = 31) →
      ∀ p, Base58CheckSpec.decode? (witness net.hrp v prog) ≠ some (0x05#8 :: p))
    (ho : Base58Check.fromBase58CheckLength (witness net.hrp v prog).length ≤ out.length) :
    ∃ mem n, addressDecode host cs stack (witness net.hrp v prog ++ 0#8 :: post)
      (witness net.hrp v prog).length out out.length net'.param = .ok ⟨.bad, mem, n⟩ := by
  obtain ⟨out', ho', hdec⟩ := witness_to_bech32 net net' host cs stack v prog post out hv.2 hp.1 hp.2
    (by
      intro hm hor
      rcases hor with h | h
      · exact absurd (h.1.trans hm.symm) hne
      · exact hmix hm h) ho
  have hval := witness_valid net v prog hv.2 hp.2
  have n4 := (net_hrp net).2.2.1
  obtain ⟨n1, n2, -⟩ := net_hrp net'
  rw [decodeBech32_valid hval cs stack post out' out.length net'.param hst (by simp) (by omega) n1, n2,
    if_neg (by intro h; apply hne; cases net <;> cases net' <;> first | rfl | simp [Network.hrp] at h)] at hdec
  exact ⟨_, _, hdec⟩

/-- Number of `'1'` at the start of a string, after blanks. -/
def leadingOnes (s : List Byte) : Nat := ((s.dropWhile Base58Spec.isSpace).takeWhile (· = 49#8)).length

/-- The decoder on an arbitrary string: what it accepts as witness address. -/
theorem addressDecode_any (net : Network) (host : Host) (cs : Bool) (stack s post out : List Byte)
    (h0 : ∀ b ∈ s, b ≠ 0#8) (hr : Base58Spec.Readable cs s)
    (hst : stack.length = 128)
    (hfit : ∀ W, Base58Spec.decode? s = some W → W.length ≤ out.length) (hc : Base58Check.fromBase58CheckLength s.length ≤ out.length)
    (hnul : ∀ D, Bech32Spec.Valid s net.hrp D → NulFirst (D.tail ++ stack.drop D.length)) :
    ∃ r, addressDecode host cs stack (s ++ 0#8 :: post) s.length out out.length net.param = .ok r ∧
      r.out.length = out.length ∧ r.outSize ≤ out.length ∧
      (r.kind = .bad ∨ r.kind = .pubkey ∨ r.kind = .script ∨
        ∃ v G P, Bech32Spec.Valid s net.hrp (v :: G) ∧ (PaddingOk G → Base32Spec.encodeRaw P = G) ∧
          r.outSize ≤ out.length ∧
          ((v = 0#8 ∧ r.kind ≠ .witnessUnknown ∧ r.out.take r.outSize = P) ∨
           (v ≠ 0#8 ∧ r.kind = .witnessUnknown ∧ r.out.take r.outSize = v :: P))) := by
  obtain ⟨p1, p2, p3⟩ := net_pub net
  obtain ⟨q1, q2, q3⟩ := net_script net
  obtain ⟨n1, n2, n4, n5, n6, n7, n8⟩ := net_hrp net
  have h := addressDecode_eq host cs stack s post out out.length net.param h0 hr hc hfit p1 q1
  have hbech : ∀ out', out'.length = out.length →
      ∃ r, decodeBech32 cs stack (s ++ 0#8 :: post) s.length out' out.length net.param = .ok r ∧
      r.out.length = out.length ∧ r.outSize ≤ out.length ∧
      (r.kind = .bad ∨ r.kind = .pubkey ∨ r.kind = .script ∨
        ∃ v G P, Bech32Spec.Valid s net.hrp (v :: G) ∧ (PaddingOk G → Base32Spec.encodeRaw P = G) ∧
          r.outSize ≤ out.length ∧
          ((v = 0#8 ∧ r.kind ≠ .witnessUnknown ∧ r.out.take r.outSize = P) ∨
           (v ≠ 0#8 ∧ r.kind = .witnessUnknown ∧ r.out.take r.outSize = v :: P))) := by
    intro out' ho'
    rcases decodeBech32_any s (0#8 :: post) cs stack out' out.length net.param hst (by simp) n1 with hb | ⟨D, hD, hDne, hb⟩
    · exact ⟨_, hb, ho', Nat.le_refl _, .inl rfl⟩
    · rw [n2] at hD
      cases D with
      | nil => exact absurd rfl hDne
      | cons v G =>
        have hlt := (valid_lower_eq hD).2
        have hsl : s.length = net.hrp.length + (G.length + 1) + 7 := by
          have h2 := congrArg List.length (valid_lower_eq hD).1
          rwa [List.length_map, Bech32.encode_length, List.length_cons] at h2
        have hnl := hnul _ hD
        rw [List.tail_cons, List.length_cons] at hnl
        have hdl := decLen_le G.length
        have hhrp : 1 ≤ net.hrp.length := List.length_pos_iff.mpr n5
        have hfl := hc
        rw [Base58Check.fromBase58CheckLength, Base58.fromBase58Length] at hfl
        obtain ⟨P, hPl, hPc, e⟩ := decodeWitness_any cs v G (stack.drop (G.length + 1)) out' out.length
          (fun g hg => hlt g (by simp [hg])) hnl (by omega) (by omega)
        have hov : over (v :: G) stack = v :: G ++ stack.drop (G.length + 1) := rfl
        rw [hb, hov, List.length_cons, e]
        refine ⟨_, rfl, ?_⟩
        by_cases hv : v = 0#8
        · rw [if_pos hv]
          refine ⟨by rw [over_length _ _ (by omega)]; exact ho', by simp only; omega, ?_⟩
          right; right; right
          refine ⟨v, G, P, hD, hPc, by simp only; omega, .inl ⟨hv, ?_, by simp [over]⟩⟩
          simp only
          split
          · simp
          · split <;> simp
        · rw [if_neg hv]
          refine ⟨by rw [over_length _ _ (by rw [List.length_cons]; omega)]; exact ho', by simp only; omega, ?_⟩
          by_cases hk : v.toNat > 16 ∨ P.length + 1 < 3 ∨ P.length + 1 > 41
          · left; simp only [if_pos hk]
          · right; right; right
            exact ⟨v, G, P, hD, hPc, by simp only; omega, .inr ⟨hv, by simp only [if_neg hk], by simp [over]⟩⟩
  rw [h]
  cases hd : Base58CheckSpec.decode? s with
  | none =>
    apply hbech
    cases hb : Base58Spec.decode? s with
    | none => simp [over]
    | some W => exact over_length _ _ (hfit W hb)
  | some cp =>
    have hW : ∃ W, Base58Spec.decode? s = some W ∧ W = cp ++ Base58CheckSpec.checksum cp := by
      rw [Base58CheckSpec.decode?] at hd
      cases hb : Base58Spec.decode? s with
      | none => rw [hb] at hd; simp at hd
      | some W => rw [hb, Option.bind_some] at hd; exact ⟨W, rfl, Base58Check.check?_some hd⟩
    obtain ⟨W, hW, hWe⟩ := hW
    have hWl := hfit W hW
    have hol : (over (cp ++ Base58CheckSpec.checksum cp) out).length = out.length := by
      rw [← hWe]; exact over_length _ _ hWl
    have hcpl : cp.length ≤ out.length := by
      have : cp.length ≤ W.length := by rw [hWe]; simp
      omega
    cases cp with
    | nil =>
      apply hbech
      rw [hW]; exact over_length _ _ hWl
    | cons c p =>
      simp only
      split
      · refine ⟨_, rfl, ?_, ?_, .inr (.inl rfl)⟩
        · rw [over_length _ _ (by rw [hol, List.length_drop]; omega), hol]
        · simp only; omega
      · split
        · refine ⟨_, rfl, ?_, ?_, .inr (.inr (.inl rfl))⟩
          · rw [over_length _ _ (by rw [hol, List.length_drop]; omega), hol]
          · simp only; omega
        · exact hbech _ hol

/-- A text with at most three `'1'` at its start stands for no more bytes than the documented size. -/
theorem fits_of_leadingOnes (s W : List Byte) (h3 : leadingOnes s ≤ 3) (hW : Base58Spec.decode? s = some W) :
    W.length ≤ Base58Check.fromBase58CheckLength s.length := by
  have := decode58_length_le s W hW
  have hts : ((s.dropWhile Base58Spec.isSpace).takeWhile (· = 49#8)).length ≤ s.length :=
    Nat.le_trans (List.takeWhile_sublist _).length_le (List.dropWhile_suffix _).length_le
  rw [leadingOnes] at h3
  rw [Base58Check.fromBase58CheckLength, Base58.fromBase58Length]
  omega

/-- The decoder with enough announced room is undefined whenever Base58Check decoding is. -/
theorem addressDecode_ub (net : Network) (host : Host) (cs : Bool) (stack s post out : List Byte) (h0 : ∀ b ∈ s, b ≠ 0#8)
    (hc : Base58Check.fromBase58CheckLength s.length ≤ out.length)
    (h : ¬ (Base58Spec.Readable cs s ∧ ∀ W, Base58Spec.decode? s = some W → W.length ≤ out.length)) :
    addressDecode host cs stack (s ++ 0#8 :: post) s.length out out.length net.param = .ub := by
  rw [addressDecode, if_neg (by omega), (Base58Check.fromBase58Check_ub_iff host cs s post out h0).mpr h]
  rfl

/-- C43, the part that holds: for every string, every announced capacity (`out` is exactly the announced buffer; stack
buffer as in C39) the decoder returns without touching memory outside `out` and reports a size within it, except exactly if the
announced size is the documented one at least and the string is not readable as base58 at all (too long for `int`, or, where `char`
is signed, scanned up to a negative character) or stands for more bytes than `out` has; then the behaviour is undefined.
Missing: that these exceptions do not occur (they do, see `C43_violated_leading_ones`, `C43_violated_negative`), and the
indeterminate stack. -/
theorem C43_decode_within_partial (net : Network) (host : Host) (cs : Bool) (stack s post out : List Byte)
    (h0 : ∀ b ∈ s, b ≠ 0#8) (hst : stack.length = 128)
    (hnul : ∀ D, Bech32Spec.Valid s net.hrp D → NulFirst (D.tail ++ stack.drop D.length)) :
    ((out.length < Base58Check.fromBase58CheckLength s.length ∨
        (Base58Spec.Readable cs s ∧ ∀ W, Base58Spec.decode? s = some W → W.length ≤ out.length)) →
      ∃ r, addressDecode host cs stack (s ++ 0#8 :: post) s.length out out.length net.param = .ok r ∧
        r.out.length = out.length ∧ r.outSize ≤ out.length) ∧
    (¬ (out.length < Base58Check.fromBase58CheckLength s.length ∨
        (Base58Spec.Readable cs s ∧ ∀ W, Base58Spec.decode? s = some W → W.length ≤ out.length)) →
      addressDecode host cs stack (s ++ 0#8 :: post) s.length out out.length net.param = .ub) := by
  by_cases hc : Base58Check.fromBase58CheckLength s.length ≤ out.length
  · refine ⟨fun h => ?_, fun h => addressDecode_ub net host cs stack s post out h0 hc fun h' => h (.inr h')⟩
    have hr : Base58Spec.Readable cs s ∧ ∀ W, Base58Spec.decode? s = some W → W.length ≤ out.length := by
      rcases h with h | h
      · omega
      · exact h
    obtain ⟨r, h1, h2, h4, -⟩ := addressDecode_any net host cs stack s post out h0 hr.1 hst hr.2 hc hnul
    exact ⟨r, h1, h2, h4⟩
  · refine ⟨fun _ => ⟨⟨.bad, out, out.length⟩, ?_, rfl, Nat.le_refl _⟩, fun h => absurd (.inl (Nat.lt_of_not_le hc)) h⟩
    rw [addressDecode, if_pos (by omega)]
    rfl

/-- C43, texts as users have them: 7-bit, not gigantic, at most three leading `'1'`s. -/
theorem C43_decode_within_usual_partial (net : Network) (host : Host) (cs : Bool) (stack s post out : List Byte)
    (h0 : ∀ b ∈ s, b ≠ 0#8) (h7 : cs = true → ∀ b ∈ s, b.toNat < 128) (hlen : s.length ≤ 2929669)
    (hst : stack.length = 128) (h3 : leadingOnes s ≤ 3)
    (hnul : ∀ D, Bech32Spec.Valid s net.hrp D → NulFirst (D.tail ++ stack.drop D.length)) :
    ∃ r, addressDecode host cs stack (s ++ 0#8 :: post) s.length out out.length net.param = .ok r ∧
      r.out.length = out.length ∧ r.outSize ≤ out.length := by
  refine (C43_decode_within_partial net host cs stack s post out h0 hst hnul).1 ?_
  by_cases hc : out.length < Base58Check.fromBase58CheckLength s.length
  · exact .inl hc
  · exact .inr ⟨Base58Check.readable_of cs s h7 hlen, fun W hW =>
      Nat.le_trans (fits_of_leadingOnes s W h3 hW) (Nat.le_of_not_lt hc)⟩

/-- C43 is violated by the code for every text starting with a byte of 0x80 to 0xFE where `char` is signed: `isspace` is
called with a negative argument. -/
theorem C43_violated_negative (net : Network) (host : Host) (stack s post out : List Byte) (b : Byte) (h0 : ∀ b ∈ s, b ≠ 0#8)
    (hb : 128 ≤ b.toNat ∧ b.toNat < 255) (hc : Base58Check.fromBase58CheckLength (b :: s).length ≤ out.length) :
    addressDecode host true stack (b :: s ++ 0#8 :: post) (b :: s).length out out.length net.param = .ub := by
  refine addressDecode_ub net host true stack (b :: s) post out ?_ hc ?_
  · intro c hc'
    rcases List.mem_cons.mp hc' with rfl | hc'
    · rintro rfl; exact absurd hb.1 (by decide)
    · exact h0 c hc'
  · rintro ⟨⟨-, h⟩, -⟩
    exact h ⟨rfl, [], b, s, rfl, by simp, hb, by decide⟩

/-- C44, the part that holds: any two lower-case strings whose data part (if they are valid Bech32 for the
network at all) obeys BIP 173's padding rule never decode to the same witness type and program.
Missing: the decoder does not enforce the rule, see `C44_violated_padding`. -/
theorem C44_not_malleable_partial (net : Network) (host : Host) (cs : Bool) (stack1 stack2 s1 s2 post1 post2
    out1 out2 : List Byte) (r1 r2 : Decoded)
    (h0 : ∀ b ∈ s1 ++ s2, b ≠ 0#8)
    (hst1 : stack1.length = 128) (hst2 : stack2.length = 128)
    (hlow : ∀ c ∈ s1 ++ s2, ¬ Bech32Spec.isUpper c)
    (hd1 : ∀ D, Bech32Spec.Valid s1 net.hrp D → PaddingOk D.tail ∧ NulFirst (D.tail ++ stack1.drop D.length))
    (hd2 : ∀ D, Bech32Spec.Valid s2 net.hrp D → PaddingOk D.tail ∧ NulFirst (D.tail ++ stack2.drop D.length))
    (h1 : addressDecode host cs stack1 (s1 ++ 0#8 :: post1) s1.length out1 out1.length net.param = .ok r1)
    (h2 : addressDecode host cs stack2 (s2 ++ 0#8 :: post2) s2.length out2 out2.length net.param = .ok r2)
    (hk : r1.kind = .witnessV0Keyhash ∨ r1.kind = .witnessV0Scripthash ∨ r1.kind = .witnessUnknown)
    (hsame : r1.kind = r2.kind ∧ r1.out.take r1.outSize = r2.out.take r2.outSize) : s1 = s2 := by
  have key : ∀ (stack s post out : List Byte) (r : Decoded), (∀ b ∈ s, b ≠ 0#8) →
      stack.length = 128 →
      (∀ c ∈ s, ¬ Bech32Spec.isUpper c) →
      (∀ D, Bech32Spec.Valid s net.hrp D → PaddingOk D.tail ∧ NulFirst (D.tail ++ stack.drop D.length)) →
      addressDecode host cs stack (s ++ 0#8 :: post) s.length out out.length net.param = .ok r →
      (r.kind = .witnessV0Keyhash ∨ r.kind = .witnessV0Scripthash ∨ r.kind = .witnessUnknown) →
      ∃ v P, s = witness net.hrp v P ∧
        ((v = 0#8 ∧ r.kind ≠ .witnessUnknown ∧ r.out.take r.outSize = P) ∨
           (v ≠ 0#8 ∧ r.kind = .witnessUnknown ∧ r.out.take r.outSize = v :: P)) := by
    intro stack s post out r h0 hst hlow hd h hk
    by_cases hc : Base58Check.fromBase58CheckLength s.length ≤ out.length
    · have hr : Base58Spec.Readable cs s ∧ ∀ W, Base58Spec.decode? s = some W → W.length ≤ out.length := by
        by_contra hr
        rw [addressDecode_ub net host cs stack s post out h0 hc hr] at h
        cases h
      obtain ⟨r', e, -, -, hcase⟩ := addressDecode_any net host cs stack s post out h0 hr.1 hst hr.2 hc
        (fun D hD => (hd D hD).2)
      rw [h] at e
      injection e with e
      subst e
      rcases hcase with h' | h' | h' | ⟨v, G, P, hv, hP, -, hres⟩
      · rw [h'] at hk; simp at hk
      · rw [h'] at hk; simp at hk
      · rw [h'] at hk; simp at hk
      · refine ⟨v, P, ?_, hres⟩
        have hpad := (hd _ hv).1
        rw [List.tail_cons] at hpad
        have hlo := (valid_lower_eq hv).1
        have hid : s.map Bech32Spec.lower = s := by
          conv => rhs; rw [← List.map_id s]
          apply List.map_congr_left
          intro c hc
          simp [Bech32Spec.lower, hlow c hc]
        rw [hid] at hlo
        rw [hlo, witness, hP hpad]
    · rw [addressDecode, if_pos (by omega)] at h
      simp only [Res.pure_eq, Res.ok.injEq] at h
      rw [← h] at hk
      simp at hk
  obtain ⟨v1, P1, e1, c1⟩ := key stack1 s1 post1 out1 r1 (fun b hb => h0 b (by simp [hb]))
    hst1 (fun c hc => hlow c (by simp [hc])) hd1 h1 hk
  obtain ⟨v2, P2, e2, c2⟩ := key stack2 s2 post2 out2 r2 (fun b hb => h0 b (by simp [hb]))
    hst2 (fun c hc => hlow c (by simp [hc])) hd2 h2
    (hsame.1 ▸ hk)
  rw [e1, e2]
  rcases c1 with ⟨a1, b1, d1⟩ | ⟨a1, b1, d1⟩ <;> rcases c2 with ⟨a2, b2, d2⟩ | ⟨a2, b2, d2⟩
  · rw [a1, a2, ← d1, ← d2, hsame.2]
  · rw [hsame.1] at b1; exact absurd b2 b1
  · rw [← hsame.1] at b2; exact absurd b1 b2
  · have := hsame.2
    rw [d1, d2] at this
    injection this with x y
    rw [x, y]

/-- C39 is violated by the code: decoding the mainnet address of the key hash FF…FF depends on
uninitialised stack memory.  If the bytes that happen to lie after the decoded values are zero the
address is recognised; if they are `AA=` it is rejected; if no NUL or `'='` follows, `strchr` runs out
of the buffer. -/
theorem C39_violated_by_stack_contents :
    toAddressWitnessV0Keyhash false (List.replicate 20 0xFF) 20 (List.replicate 42 0) 42 mainnet =
        .ok (cstr "bc1qllllllllllllllllllllllllllllllllfglmy6", 42) ∧
    addressDecode .little true (List.replicate 128 0)
        (cstr "bc1qllllllllllllllllllllllllllllllllfglmy6" ++ [0]) 42 (List.replicate 40 7) 40 mainnet =
      .ok ⟨.witnessV0Keyhash, List.replicate 20 0xFF ++ List.replicate 20 7, 20⟩ ∧
    addressDecode .little true (List.replicate 33 0 ++ cstr "AA=" ++ List.replicate 92 0)
        (cstr "bc1qllllllllllllllllllllllllllllllllfglmy6" ++ [0]) 42 (List.replicate 40 7) 40 mainnet =
      .ok ⟨.bad, List.replicate 20 0xFF ++ 0xFF :: List.replicate 19 7, 21⟩ ∧
    addressDecode .little true (List.replicate 128 0x41)
        (cstr "bc1qllllllllllllllllllllllllllllllllfglmy6" ++ [0]) 42 (List.replicate 40 7) 40 mainnet =
      .ub := by
  decide +kernel

/-- C40 is violated by the code in the same way. -/
theorem C40_violated_by_stack_contents :
    toAddressWitnessUnknown [1, 0xFF, 0xFF] 3 (List.replicate 14 0) 14 mainnet =
        .ok (cstr "bc1pllls43h4a4", 14) ∧
    addressDecode .little true (List.replicate 128 0) (cstr "bc1pllls43h4a4" ++ [0]) 14
        (List.replicate 12 7) 12 mainnet = .ok ⟨.witnessUnknown, [1, 0xFF, 0xFF] ++ List.replicate 9 7, 3⟩ ∧
    addressDecode .little true (List.replicate 128 0x41) (cstr "bc1pllls43h4a4" ++ [0]) 14
        (List.replicate 12 7) 12 mainnet = .ub := by
  decide +kernel

/-- C43 is violated by the code: ten `'1'` need ten bytes, the announced nine suffice for the check. -/
theorem C43_violated_leading_ones :
    Base58Check.fromBase58CheckLength 10 = 9 ∧
    addressDecode .little true (List.replicate 128 0) (cstr "1111111111" ++ [0]) 10 (List.replicate 9 7) 9
      mainnet = .ub := by
  decide +kernel

/-- C44 is violated by the code, too, because a surplus group is accepted: the second string has 33 groups
for 20 bytes. -/
theorem C44_violated_surplus_group :
    ∃ mem, addressDecode .little true (List.replicate 128 0)
        (cstr "bc1qqyyq79says4nyw2qga892hrrdfchsluxw64f9c" ++ [0]) 42 (List.replicate 40 7) 40 mainnet =
        .ok ⟨.witnessV0Keyhash, mem, 20⟩ ∧
      addressDecode .little true (List.replicate 128 0)
        (cstr "bc1qqyyq79says4nyw2qga892hrrdfchsluxfmv74cy" ++ [0]) 43 (List.replicate 40 7) 40 mainnet =
        .ok ⟨.witnessV0Keyhash, mem, 20⟩ :=
  ⟨(List.range 20).map (fun i => BitVec.ofNat 8 (7*i+1)) ++ List.replicate 20 7, by decide +kernel,
    by decide +kernel⟩

/-- C44 is violated by the code: non-zero padding bits are accepted (the two strings differ in the
padding). -/
theorem C44_violated_padding :
    (∃ mem, addressDecode .little true (List.replicate 128 0) (cstr "bc1pw50qtq0mkp" ++ [0]) 14
        (List.replicate 12 7) 12 mainnet = .ok ⟨.witnessUnknown, mem, 3⟩ ∧
      addressDecode .little true (List.replicate 128 0) (cstr "bc1pw509euegyf" ++ [0]) 14
        (List.replicate 12 7) 12 mainnet = .ok ⟨.witnessUnknown, mem, 3⟩) ∧
    Bech32Spec.encode Network.main.hrp [1, 14, 20, 15, 5] = cstr "bc1pw509euegyf" ∧
    ¬ PaddingOk [14, 20, 15, 5] := by
  refine ⟨⟨[1, 0x75, 0x1e] ++ List.replicate 9 7, by decide +kernel, by decide +kernel⟩, by decide +kernel, ?_⟩
  rintro ⟨-, h⟩
  exact absurd (h true (by decide +kernel)) (by decide)

/-- Instances meeting the hypotheses of the partial theorems C39, C40, C43, C44: a zeroed stack buffer, a
program, and a padded group sequence. -/
example : NulFirst (Base32Spec.encodeRaw (List.replicate 20 0xFF) ++ (List.replicate 128 0#8).drop 33) :=
  ⟨Base32Spec.encodeRaw (List.replicate 20 0xFF), List.replicate 94 0#8, by decide +kernel, by decide +kernel⟩

example : PaddingOk [14, 20, 15, 0] := by
  constructor
  · decide +kernel
  · have : ([14, 20, 15, 0].flatMap fun g : Byte => BaseN.bitsOf 5 g.toNat).drop 16 =
        [false, false, false, false] := by decide +kernel
    intro b hb
    have hb' : b ∈ [false, false, false, false] := this ▸ hb
    simpa using hb'

example : leadingOnes (cstr "bc1pw50qtq0mkp") ≤ 3 ∧ leadingOnes (cstr "3QJmV3qfvL9SuYo34YihAf3sRCW3qSinyC") ≤ 3 := by
  decide +kernel

/-- C39 is violated by the code in a third way, on mainnet: this is the address the encoder makes for a
script hash (found by search); being base58check with version byte 5 as well, it is decoded as the
41-byte "hash" of a pay-to-script-hash address, whatever the stack contains.  (The condition `hmix` of
`C39_scripthash_roundtrip_partial` excludes exactly this.) -/
theorem C39_violated_mistaken_for_base58 :
    toAddressWitnessV0Scripthash false
        [0x35, 0x98, 0x88, 0x3b, 0x98, 0x09, 0x3c, 0x61, 0x43, 0x1d, 0x55, 0xa1, 0xef, 0x08, 0xe4, 0xb7,
         0xba, 0x79, 0x9e, 0xe8, 0xae, 0x71, 0x6c, 0x09, 0x67, 0x44, 0x54, 0x10, 0xa5, 0x45, 0xce, 0xf2]
        32 (List.replicate 62 0) 62 mainnet =
      .ok (cstr "bc1qxkvgswucpy7xzsca2ks77z8yk7a8n8hg4eckczt8g32ppf29emeqd7t7p6", 62) ∧
    ∀ stack, addressDecode .little true stack
        (cstr "bc1qxkvgswucpy7xzsca2ks77z8yk7a8n8hg4eckczt8g32ppf29emeqd7t7p6" ++ [0]) 62
        (List.replicate 60 7) 60 mainnet =
      .ok ⟨.script,
        [0x76, 0x87, 0x93, 0xb7, 0x57, 0x64, 0x3c, 0x40, 0xab, 0x8c, 0xf4, 0x70, 0xc5, 0x3e, 0x3b, 0xb5,
         0x2d, 0x88, 0xd8, 0x8e, 0x12, 0x26, 0x99, 0x8e, 0xeb, 0x6d, 0xc7, 0x0b, 0x16, 0x46, 0xdc, 0x90,
         0x11, 0x2b, 0x8c, 0x72, 0xd0, 0xec, 0x7c, 0x7a, 0x16, 0x16, 0x3f, 0x0e, 0x2e, 0xdb] ++
         List.replicate 14 7, 41⟩ := by
  refine ⟨by decide +kernel, fun stack => ?_⟩
  have h1 : Base58Check.fromBase58Check .little true
      (cstr "bc1qxkvgswucpy7xzsca2ks77z8yk7a8n8hg4eckczt8g32ppf29emeqd7t7p6" ++ [0]) 62 (List.replicate 60 7) =
      .ok ([0x05, 0x76, 0x87, 0x93, 0xb7, 0x57, 0x64, 0x3c, 0x40, 0xab, 0x8c, 0xf4, 0x70, 0xc5, 0x3e, 0x3b, 0xb5,
         0x2d, 0x88, 0xd8, 0x8e, 0x12, 0x26, 0x99, 0x8e, 0xeb, 0x6d, 0xc7, 0x0b, 0x16, 0x46, 0xdc, 0x90,
         0x11, 0x2b, 0x8c, 0x72, 0xd0, 0xec, 0x7c, 0x7a, 0x16, 0x3f, 0x0e, 0x2e, 0xdb] ++
         List.replicate 14 7, 42) := by decide +kernel
  rw [addressDecode, if_neg (by decide), h1, Res.ok_bind]
  rfl

/-- C42 is violated by the code: this is the testnet address the encoder makes for a version 1 program of
35 bytes (found by search); being base58check with version byte 5 as well, it is accepted by the mainnet
decoder as the 44-byte "hash" of a pay-to-script-hash address, whatever the stack contains.  (The condition
`hmix` of `C42_witness_unknown_networks_partial` excludes exactly this.) -/
theorem C42_violated_testnet_witness_on_mainnet :
    toAddressWitnessUnknown
        [0x01, 0xaa, 0x29, 0x13, 0x06, 0x16, 0x12, 0xc1, 0xa5, 0x07, 0x86, 0x2a, 0xa8, 0x1d, 0x79, 0x82,
         0x5a, 0x0e, 0x40, 0xeb, 0xde, 0xe0, 0x0a, 0x1a, 0xa6, 0x55, 0x9a, 0x33, 0x0d, 0xa4, 0x66, 0x9d,
         0xf7, 0x5e, 0x5a, 0x6d]
        36 (List.replicate 66 0) 66 testnet =
      .ok (cstr "tb1p4g53xpskztq62pux925p67vztg8yp677uq9p4fj4ngesmfrxnhm4uknd3v8y5w", 66) ∧
    ∀ stack, addressDecode .little true stack
        (cstr "tb1p4g53xpskztq62pux925p67vztg8yp677uq9p4fj4ngesmfrxnhm4uknd3v8y5w" ++ [0]) 66
        (List.replicate 64 7) 64 mainnet =
      .ok ⟨.script,
        [0x7e, 0x4b, 0xdb, 0x32, 0xa2, 0x13, 0x80, 0xe0, 0x96, 0xe5, 0x67, 0xa8, 0x02, 0x89, 0xd2, 0xdd,
         0x06, 0x78, 0x2b, 0xbb, 0xd8, 0x5a, 0xb7, 0x4d, 0xcd, 0x5a, 0xee, 0x82, 0xbf, 0xe9, 0x88, 0x87,
         0x7f, 0x2f, 0xa5, 0x20, 0x64, 0xb4, 0x48, 0x52, 0xde, 0x65, 0x1d, 0x20, 0x20, 0xf7, 0xc4, 0xd0,
         0x26] ++
         List.replicate 15 7, 44⟩ := by
  refine ⟨by decide +kernel, fun stack => ?_⟩
  have h1 : Base58Check.fromBase58Check .little true
      (cstr "tb1p4g53xpskztq62pux925p67vztg8yp677uq9p4fj4ngesmfrxnhm4uknd3v8y5w" ++ [0]) 66 (List.replicate 64 7) =
      .ok ([0x05, 0x7e, 0x4b, 0xdb, 0x32, 0xa2, 0x13, 0x80, 0xe0, 0x96, 0xe5, 0x67, 0xa8, 0x02, 0x89, 0xd2,
         0xdd, 0x06, 0x78, 0x2b, 0xbb, 0xd8, 0x5a, 0xb7, 0x4d, 0xcd, 0x5a, 0xee, 0x82, 0xbf, 0xe9, 0x88,
         0x87, 0x7f, 0x2f, 0xa5, 0x20, 0x64, 0xb4, 0x48, 0x52, 0xde, 0x65, 0x1d, 0x20, 0xf7, 0xc4, 0xd0,
         0x26] ++
         List.replicate 15 7, 45) := by decide +kernel
  rw [addressDecode, if_neg (by decide), h1, Res.ok_bind]
  rfl
