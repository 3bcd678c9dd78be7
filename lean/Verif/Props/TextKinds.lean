import Verif.Props.Texts
/-!
Property theorem C76: a text of one kind is not accepted by the reader of another kind, on whatever network.
-/
open Address AddressSpec Exkey Key TextPrefix

/-- A Base58Check text with a first byte that is no address version, not beginning like a witness address, is no address. -/
theorem not_an_address (net : Network) (host : Host) (cs : Bool) (stack post out : List Byte) (c : Byte) (p : List Byte)
    (hst : stack.length = 128) (hc : c ≠ net.pubkeyVersion ∧ c ≠ net.scriptVersion)
    (hlen : (Base58CheckSpec.encode (c :: p)).length ≤ 2929669)
    (hW : p.length + 5 ≤ Base58Check.fromBase58CheckLength (Base58CheckSpec.encode (c :: p)).length)
    (hh : ∀ D, (Base58CheckSpec.encode (c :: p)).map Bech32Spec.lower ≠ Bech32Spec.encode net.hrp D) :
    ∃ mem n, addressDecode host cs stack (Base58CheckSpec.encode (c :: p) ++ 0#8 :: post)
      (Base58CheckSpec.encode (c :: p)).length out out.length net.param = .ok ⟨.bad, mem, n⟩ := by
  by_cases hsz : out.length < Base58Check.fromBase58CheckLength (Base58CheckSpec.encode (c :: p)).length
  · exact ⟨out, out.length, by rw [addressDecode, if_pos hsz]; rfl⟩
  · obtain ⟨p1, p2, p3⟩ := net_pub net
    obtain ⟨q1, q2, q3⟩ := net_script net
    obtain ⟨n1, n2, -⟩ := net_hrp net
    have hd : Base58Spec.decode? (Base58CheckSpec.encode (c :: p)) = some ((c :: p) ++ Base58CheckSpec.checksum (c :: p)) :=
      decode_encode58 _
    have hdc : Base58CheckSpec.decode? (Base58CheckSpec.encode (c :: p)) = some (c :: p) := by
      rw [Base58CheckSpec.decode?, hd, Option.bind_some, Base58Check.check?_append]
    have h := addressDecode_eq host cs stack (Base58CheckSpec.encode (c :: p)) post out out.length net.param
      (fun b hb => (encode58_chars _ b hb).2.1)
      (Base58Check.readable_of _ _ (fun _ b hb => (encode58_chars _ b hb).2.2.1) hlen) (by omega)
      (by
        intro W hW'
        rw [hd] at hW'
        injection hW' with hW'
        rw [← hW', List.length_append, Base58Check.checksum_length, List.length_cons]; omega)
      p1 q1
    rw [hdc] at h
    simp only [p3, q3, isPrefix_one, if_neg hc.1, if_neg hc.2] at h
    rw [h]
    rcases decodeBech32_any (Base58CheckSpec.encode (c :: p)) (0#8 :: post) cs stack
      (over (c :: p ++ Base58CheckSpec.checksum (c :: p)) out) out.length net.param hst (by simp) n1 with hb | ⟨D, hD, -⟩
    · exact ⟨_, _, hb⟩
    · rw [n2] at hD
      exact absurd (valid_lower_eq hD).1 (hh D)

/-- Texts with the first character among `set` (none of b, t) do not begin like a witness address. -/
theorem begins_not_hrp {set : String} {k : Nat} {text : List Byte} (net : Network) (hb : Begins set k text)
    (hs : ∀ c ∈ set.toList, Bech32Spec.lower (chr c) ≠ 98#8 ∧ Bech32Spec.lower (chr c) ≠ 116#8) (D : List Byte) :
    text.map Bech32Spec.lower ≠ Bech32Spec.encode net.hrp D := by
  obtain ⟨c, hc, t, rfl, -⟩ := hb
  intro h
  have := hs c hc
  rw [List.map_cons, Bech32Spec.encode] at h
  cases net <;> simp only [Network.hrp, List.cons_append, List.cons.injEq] at h
  · exact this.1 h.1
  · exact this.2 h.1
  · exact this.1 h.1

theorem begins_word_not_hrp {word : String} {k : Nat} {text : List Byte} (net : Network) (hb : BeginsWord word k text)
    (a b : Byte) (r : List Byte) (hw : cstr word = a :: b :: r)
    (hs : Bech32Spec.lower a ≠ 98#8 ∧ (Bech32Spec.lower a = 116#8 → Bech32Spec.lower b ≠ 98#8)) (D : List Byte) :
    text.map Bech32Spec.lower ≠ Bech32Spec.encode net.hrp D := by
  obtain ⟨t, rfl, -⟩ := hb
  intro h
  rw [hw, List.cons_append, List.cons_append, List.map_cons, List.map_cons, Bech32Spec.encode] at h
  cases net <;> simp only [Network.hrp, List.cons_append, List.cons.injEq] at h
  · exact hs.1 h.1
  · exact hs.2 h.1 h.2.1
  · exact hs.1 h.1

/-- C76, addresses: neither the text of a secret key (compressed or not) nor that of an extended private or public key of any network
is accepted as an address of any network, whatever the size of the output buffer. -/
theorem C76_keys_are_no_addresses (net net' : Network) (host : Host) (cs : Bool) (stack post out key : List Byte) (c : Bool)
    (k : ExKey) (pk : ExPubkey) (hst : stack.length = 128) (hkey : key.length = 32) (hk : BufPriv k) (hpk : BufPub pk) :
    ∀ text ∈ [WifSpec.wif net key c, xprv net k, xpub net pk],
      ∃ mem n, addressDecode host cs stack (text ++ 0#8 :: post) text.length out out.length net'.param = .ok ⟨.bad, mem, n⟩ := by
  intro text ht
  have hvers : ∀ v : Byte, v ∈ [0x80#8, 0xEF#8, 0x04#8] → v ≠ net'.pubkeyVersion ∧ v ≠ net'.scriptVersion := by
    cases net' <;> decide
  have hext : ∀ (pre code : List Byte) (word : String) (a b : Byte) (r : List Byte), pre.head? = some 4#8 → pre.length = 4 →
      code.length = 74 → BeginsWord word 107 (Base58CheckSpec.encode (pre ++ code)) → cstr word = a :: b :: r →
      (cstr word).length = 4 →
      Bech32Spec.lower a ≠ 98#8 ∧ (Bech32Spec.lower a = 116#8 → Bech32Spec.lower b ≠ 98#8) →
      ∃ mem n, addressDecode host cs stack (Base58CheckSpec.encode (pre ++ code) ++ 0#8 :: post)
        (Base58CheckSpec.encode (pre ++ code)).length out out.length net'.param = .ok ⟨.bad, mem, n⟩ := by
    intro pre code word a b r h4 hl hc hw hcw hl4 hs
    have hlen : (Base58CheckSpec.encode (pre ++ code)).length = 111 := by
      obtain ⟨t, e, hl'⟩ := hw
      rw [e, List.length_append, hl', hl4]
    match pre, h4 with
    | v :: pre, h4 =>
      rw [List.head?_cons, Option.some.injEq] at h4
      rw [List.cons_append] at hlen hw ⊢
      refine not_an_address net' host cs stack post out v (pre ++ code) hst (hvers v (by rw [h4]; simp)) (by omega) ?_
        (begins_word_not_hrp net' hw a b r hcw hs)
      rw [hlen, List.length_append, hc]
      rw [List.length_cons] at hl
      have : Base58Check.fromBase58CheckLength 111 = 83 := by decide
      omega
  rcases List.mem_cons.mp ht with rfl | ht
  · -- secret keys
    have hb := text_wif net key hkey c
    have fin : ∀ (set : String) (k : Nat), Begins set k (WifSpec.wif net key c) → k = 50 + (if c then 1 else 0) →
        (∀ c ∈ set.toList, Bech32Spec.lower (chr c) ≠ 98#8 ∧ Bech32Spec.lower (chr c) ≠ 116#8) →
        ∃ mem n, addressDecode host cs stack (WifSpec.wif net key c ++ 0#8 :: post) (WifSpec.wif net key c).length out out.length
          net'.param = .ok ⟨.bad, mem, n⟩ := by
      intro set kk hb hkk hs
      have hlen : (WifSpec.wif net key c).length = kk + 1 := by
        obtain ⟨_, _, t, e, hl'⟩ := hb
        rw [e, List.length_cons, hl']
      have hv : net.secretVersion ∈ [0x80#8, 0xEF#8, 0x04#8] := by cases net <;> decide
      refine not_an_address net' host cs stack post out net.secretVersion (key ++ if c then [1#8] else []) hst (hvers _ hv) ?_ ?_
        (begins_not_hrp net' hb hs)
      · show (WifSpec.wif net key c).length ≤ _
        cases c <;> simp at hkk <;> omega
      · show _ ≤ Base58Check.fromBase58CheckLength (WifSpec.wif net key c).length
        rw [hlen, List.length_append, hkey, hkk]
        cases c <;> decide
    cases net <;> cases c
    · exact fin _ _ hb rfl (by decide +kernel)
    · exact fin _ _ hb rfl (by decide +kernel)
    · exact fin _ _ hb rfl (by decide +kernel)
    · exact fin _ _ hb rfl (by decide +kernel)
    · exact fin _ _ hb rfl (by decide +kernel)
    · exact fin _ _ hb rfl (by decide +kernel)
  · rcases List.mem_cons.mp ht with rfl | ht
    · have h := text_xprv net k hk
      cases net
      · exact hext _ _ "xprv" (chr 'x') (chr 'p') [chr 'r', chr 'v'] rfl rfl (privBytes_length k hk) h rfl rfl (by decide +kernel)
      · exact hext _ _ "tprv" (chr 't') (chr 'p') [chr 'r', chr 'v'] rfl rfl (privBytes_length k hk) h rfl rfl (by decide +kernel)
      · exact hext _ _ "tprv" (chr 't') (chr 'p') [chr 'r', chr 'v'] rfl rfl (privBytes_length k hk) h rfl rfl (by decide +kernel)
    · rw [List.mem_singleton] at ht
      subst ht
      have h := text_xpub net pk hpk
      cases net
      · exact hext _ _ "xpub" (chr 'x') (chr 'p') [chr 'u', chr 'b'] rfl rfl (pubBytes_length pk hpk) h rfl rfl (by decide +kernel)
      · exact hext _ _ "tpub" (chr 't') (chr 'p') [chr 'u', chr 'b'] rfl rfl (pubBytes_length pk hpk) h rfl rfl (by decide +kernel)
      · exact hext _ _ "tpub" (chr 't') (chr 'p') [chr 'u', chr 'b'] rfl rfl (pubBytes_length pk hpk) h rfl rfl (by decide +kernel)

/-- What is decoded from a text written by Base58Check. -/
theorem decode_texts (q : List Byte) : Base58Spec.decode? (Base58CheckSpec.encode q) = some (q ++ Base58CheckSpec.checksum q) ∧
    Base58CheckSpec.decode? (Base58CheckSpec.encode q) = some q := by
  have hd : Base58Spec.decode? (Base58CheckSpec.encode q) = some (q ++ Base58CheckSpec.checksum q) := decode_encode58 _
  exact ⟨hd, by rw [Base58CheckSpec.decode?, hd, Option.bind_some, Base58Check.check?_append]⟩

theorem length_texts (q : List Byte) (h : q.length ≤ 78) : (Base58CheckSpec.encode q).length ≤ 2929669 := by
  have := encodeCheck_length_le q
  rw [Base58.toBase58Length] at this
  omega

/-- C76, extended keys: no text of an address or a secret key of any network, nor an extended key of the other sort, is accepted as an
extended private or public key. -/
theorem C76_others_are_no_extended_keys (net net' : Network) (nd : Bool) (host : Host) (cs : Bool) (post hash key : List Byte)
    (c : Bool) (k kbuf : ExKey) (pk pbuf : ExPubkey) (hh : hash.length = 20) (hkey : key.length = 32) (hk : BufPriv k)
    (hpk : BufPub pk) (hkb : BufPriv kbuf) (hpb : BufPub pbuf) :
    (∀ text ∈ [base58 net.pubkeyVersion hash, base58 net.scriptVersion hash, WifSpec.wif net key c, xpub net pk],
      exkeyFromString nd host cs (text ++ 0#8 :: post) text.length kbuf net'.param = .ok (kbuf, false)) ∧
    (∀ text ∈ [base58 net.pubkeyVersion hash, base58 net.scriptVersion hash, WifSpec.wif net key c, xprv net k],
      expubkeyFromString nd host cs (text ++ 0#8 :: post) text.length pbuf net'.param = .ok (pbuf, false)) := by
  obtain ⟨n1, n2, n3, n4, n5, n6, n7, n8⟩ := net_ext net
  obtain ⟨m1, m2, m3, m4, m5, m6, m7, m8⟩ := net_ext net'
  have lp := privBytes_length k hk
  have lq := pubBytes_length pk hpk
  have hwl : (WifSpec.payload net key c).length ≤ 34 := by
    rw [WifSpec.payload, List.length_cons, List.length_append, hkey]; cases c <;> simp
  have priv : ∀ q : List Byte, q.length ≤ 78 → (¬ ∃ p, q = net'.extSecret ++ p ∧ p.length = 74) →
      exkeyFromString nd host cs (Base58CheckSpec.encode q ++ 0#8 :: post) (Base58CheckSpec.encode q).length kbuf net'.param =
        .ok (kbuf, false) := by
    intro q hq hn
    obtain ⟨d1, d2⟩ := decode_texts q
    refine (C54_exkey_from_string_spec_partial nd host cs net' (Base58CheckSpec.encode q) post kbuf (fun b hb => (encode58_chars _ b hb).2.1)
      (Base58Check.readable_of _ _ (fun _ b hb => (encode58_chars _ b hb).2.2.1) (length_texts q hq)) hkb ?_).2 ?_
    · intro W hW
      rw [d1, Option.some.injEq] at hW
      rw [← hW, List.length_append, Base58Check.checksum_length]; omega
    · rintro ⟨p, hp, hp2⟩
      rw [d2, Option.some.injEq] at hp
      exact hn ⟨p, hp, hp2⟩
  have pub : ∀ q : List Byte, q.length ≤ 78 → (¬ ∃ p, q = net'.extPublic ++ p ∧ p.length = 74) →
      expubkeyFromString nd host cs (Base58CheckSpec.encode q ++ 0#8 :: post) (Base58CheckSpec.encode q).length pbuf net'.param =
        .ok (pbuf, false) := by
    intro q hq hn
    obtain ⟨d1, d2⟩ := decode_texts q
    refine (C54_expubkey_from_string_spec_partial nd host cs net' (Base58CheckSpec.encode q) post pbuf (fun b hb => (encode58_chars _ b hb).2.1)
      (Base58Check.readable_of _ _ (fun _ b hb => (encode58_chars _ b hb).2.2.1) (length_texts q hq)) hpb ?_).2 ?_
    · intro W hW
      rw [d1, Option.some.injEq] at hW
      rw [← hW, List.length_append, Base58Check.checksum_length]; omega
    · rintro ⟨p, hp, hp2⟩
      rw [d2, Option.some.injEq] at hp
      exact hn ⟨p, hp, hp2⟩
  have short : ∀ (q pre : List Byte), q.length ≤ 34 → ¬ ∃ p, q = pre ++ p ∧ p.length = 74 := by
    rintro q pre hq ⟨p, rfl, hp⟩
    rw [List.length_append] at hq; omega
  have hne : net.extPublic ≠ net'.extSecret ∧ net.extSecret ≠ net'.extPublic := by cases net <;> cases net' <;> decide
  constructor
  · intro text ht
    simp only [List.mem_cons, List.not_mem_nil, or_false] at ht
    rcases ht with rfl | rfl | rfl | rfl
    · exact priv _ (by simp [hh]) (short _ _ (by simp [hh]))
    · exact priv _ (by simp [hh]) (short _ _ (by simp [hh]))
    · exact priv _ (by omega) (short _ _ hwl)
    · refine priv _ (by rw [List.length_append]; omega) ?_
      rintro ⟨p, hp, -⟩
      exact hne.1 (List.append_inj_left hp (by rw [n8, m7]))
  · intro text ht
    simp only [List.mem_cons, List.not_mem_nil, or_false] at ht
    rcases ht with rfl | rfl | rfl | rfl
    · exact pub _ (by simp [hh]) (short _ _ (by simp [hh]))
    · exact pub _ (by simp [hh]) (short _ _ (by simp [hh]))
    · exact pub _ (by omega) (short _ _ hwl)
    · refine pub _ (by rw [List.length_append]; omega) ?_
      rintro ⟨p, hp, -⟩
      exact hne.2 (List.append_inj_left hp (by rw [n7, m8]))

/-- C76, secret keys (proved part): the text of a P2PKH or P2SH address of any network is refused.  Missing: extended keys, see
`C76_violated_extended_key_as_secret_key`. -/
theorem C76_addresses_are_no_secret_keys_partial (net net' : Network) (nd : Bool) (host : Host) (cs : Bool)
    (post hash key32 : List Byte) (flag : Int) (hh : hash.length = 20) (hk : 32 ≤ key32.length) :
    ∀ text ∈ [base58 net.pubkeyVersion hash, base58 net.scriptVersion hash],
      keyFromString nd host cs (text ++ 0#8 :: post) text.length key32 flag net'.param = .ok ⟨false, key32, flag⟩ := by
  have main : ∀ v : Byte, keyFromString nd host cs (base58 v hash ++ 0#8 :: post) (base58 v hash).length key32 flag net'.param =
      .ok ⟨false, key32, flag⟩ := by
    intro v
    obtain ⟨d1, d2⟩ := decode_texts (v :: hash)
    have h := C46_from_string_spec_partial nd host cs net' (base58 v hash) post key32 flag
      (fun b hb => (encode58_chars _ b hb).2.1) (Base58Check.readable_of _ _ (fun _ b hb => (encode58_chars _ b hb).2.2.1)
      (length_texts _ (by rw [List.length_cons]; omega))) hk (by
        intro W hW
        rw [base58, d1, Option.some.injEq] at hW
        rw [← hW, List.length_append, Base58Check.checksum_length, List.length_cons]; omega)
    rw [h, base58, d2]
    simp only [wifResult]
    rw [if_neg (by rw [List.length_cons]; omega), if_neg (by rw [List.length_cons]; omega)]
  intro text ht
  simp only [List.mem_cons, List.not_mem_nil, or_false] at ht
  rcases ht with rfl | rfl
  · exact main _
  · exact main _

/-- C76 is violated by `fingera_btc_key_from_string`: handed the text of any extended key, private or public, of any network, it
writes 82 bytes into its array of 40. -/
theorem C76_violated_extended_key_as_secret_key (net net' : Network) (nd : Bool) (host : Host) (cs : Bool) (post key32 : List Byte)
    (flag : Int) (k : ExKey) (pk : ExPubkey) (hk : BufPriv k) (hpk : BufPub pk) :
    ∀ text ∈ [xprv net k, xpub net pk],
      keyFromString nd host cs (text ++ 0#8 :: post) text.length key32 flag net'.param = .ub := by
  obtain ⟨n1, n2, n3, n4, n5, n6, n7, n8⟩ := net_ext net
  have lp := privBytes_length k hk
  have lq := pubBytes_length pk hpk
  have main : ∀ q : List Byte, q.length = 78 →
      keyFromString nd host cs (Base58CheckSpec.encode q ++ 0#8 :: post) (Base58CheckSpec.encode q).length key32 flag net'.param =
        .ub := by
    intro q hq
    exact C46_violated_overrun nd host cs net' (Base58CheckSpec.encode q) post key32 _ flag (fun b hb => (encode58_chars _ b hb).2.1)
      (decode_texts q).1
      (by rw [List.length_append, Base58Check.checksum_length]; omega)
  intro text ht
  simp only [List.mem_cons, List.not_mem_nil, or_false] at ht
  rcases ht with rfl | rfl
  · exact main _ (by rw [List.length_append]; omega)
  · exact main _ (by rw [List.length_append]; omega)

/-- The master key of the BIP's first test vector, mistaken for a secret key of its own network. -/
example : keyFromString true .little true (vector1Text ++ [0#8]) 111 (List.replicate 32 0#8) 0 mainnet = .ub := by
  have h := C76_violated_extended_key_as_secret_key .main .main true .little true [] (List.replicate 32 0#8) 0
    ⟨⟨0#8, 0#32, 0#32, vector1Chain⟩, vector1Key⟩ ⟨⟨0#8, 0#32, 0#32, vector1Chain⟩, List.replicate 33 2#8⟩
    (by unfold BufPriv; decide) (by unfold BufPub; decide) (xprv .main _) (List.mem_cons_self ..)
  rw [vector1_xprv] at h
  exact h

/-- … and for an address. -/
example : ∃ mem n, addressDecode .little true (List.replicate 128 0#8) (vector1Text ++ [0#8]) 111 (List.replicate 90 0#8) 90 mainnet =
    .ok ⟨.bad, mem, n⟩ := by
  have h := C76_keys_are_no_addresses .main .main .little true (List.replicate 128 0#8) [] (List.replicate 90 0#8)
    (List.replicate 32 1#8) true ⟨⟨0#8, 0#32, 0#32, vector1Chain⟩, vector1Key⟩ ⟨⟨0#8, 0#32, 0#32, vector1Chain⟩, List.replicate 33 2#8⟩
    List.length_replicate List.length_replicate (by unfold BufPriv; decide) (by unfold BufPub; decide) (xprv .main _) (List.mem_cons_of_mem _ (List.mem_cons_self ..))
  rw [vector1_xprv] at h
  exact h
