import Verif.Props.OwnParameters
/-! Property theorems C110: chain parameters of the user's own, extended keys (`src/btc/exkey.c`). -/
open Exkey Key AddressSpec Base58Check Own

namespace Own

theorem ext_length_le (v p : List Byte) (hv : v.length ≤ 8) (hp : p.length = 74) :
    (Base58CheckSpec.encode (v ++ p)).length ≤ toBase58CheckLength 74 8 := by
  have := encodeCheck_length_le (v ++ p)
  rw [List.length_append, hp] at this
  have e : toBase58CheckLength 74 8 = Base58.toBase58Length 86 := rfl
  rw [e]
  refine Nat.le_trans this ?_
  rw [Base58.toBase58Length, Base58.toBase58Length]
  have h2 : (v.length + 74 + 4) * 138 ≤ 86 * 138 := Nat.mul_le_mul_right _ (by omega)
  have h3 : (v.length + 74 + 4) * 138 / 100 ≤ 86 * 138 / 100 := Nat.div_le_div_right h2
  exact Nat.add_le_add_right h3 2

/-- The texts of extended keys under given parameters: Base58Check of the prefix and the 74 bytes of BIP 32. -/
def xprv (param : ChainParameters) (k : ExKey) : List Byte := Base58CheckSpec.encode (extSecret param ++ privBytes k)
def xpub (param : ChainParameters) (k : ExPubkey) : List Byte := Base58CheckSpec.encode (extPublic param ++ pubBytes k)

theorem xprv_decode (param : ChainParameters) (k : ExKey) : Base58Spec.decode? (xprv param k) =
    some (extSecret param ++ privBytes k ++ Base58CheckSpec.checksum (extSecret param ++ privBytes k)) := decode_encode58 _
theorem xpub_decode (param : ChainParameters) (k : ExPubkey) : Base58Spec.decode? (xpub param k) =
    some (extPublic param ++ pubBytes k ++ Base58CheckSpec.checksum (extPublic param ++ pubBytes k)) := decode_encode58 _

theorem text_readable (cs : Bool) (p : List Byte) (h : p.length ≤ 2000000) : Base58Spec.Readable cs (Base58CheckSpec.encode p) := by
  refine readable_of _ _ (fun _ b hb => (encode58_chars _ b hb).2.2.1) ?_
  have := encodeCheck_length_le p
  unfold Base58.toBase58Length at this
  omega

end Own

/-- C110 (writing, extended keys). With prefixes of at most 8 bytes, `fingera_exkey_to_string` and `fingera_expubkey_to_string` write the
Base58Check text of the prefix and the 74 bytes into a buffer of `fingera_exkey_string_max_length()` bytes, and return its length. -/
theorem C110_exkey_to_string (host : Host) (param : ChainParameters) (k : ExKey) (pk : ExPubkey) (str : List Byte) (hf : Fits param)
    (hk : BufPriv k) (hpk : BufPub pk) (hs : toBase58CheckLength 74 8 ≤ str.length) :
    (param.prefixExtSecretKeySize ≤ 8 →
      exkeyToString host k str param = .ok (over (Own.xprv param k) str, (Own.xprv param k).length) ∧
      (Own.xprv param k).length ≤ toBase58CheckLength 74 8) ∧
    (param.prefixExtPublicKeySize ≤ 8 →
      expubkeyToString host pk str param = .ok (over (Own.xpub param pk) str, (Own.xpub param pk).length) ∧
      (Own.xpub param pk).length ≤ toBase58CheckLength 74 8) := by
  obtain ⟨e1, e2⟩ := C53_encode_layout host k pk (List.replicate 74 0xAA#8) hk hpk (by simp)
  have l1 := privBytes_length k hk
  have l2 := pubBytes_length pk hpk
  constructor
  · intro h8
    have hl := Own.ext_length_le (extSecret param) (privBytes k) (by rw [hf.extSecret_length]; exact h8) l1
    refine ⟨?_, hl⟩
    rw [exkeyToString, e1, Res.ok_bind, Exkey.over_all (by rw [l1]; simp), Own.xprv]
    have h := toBase58Check_eq host (privBytes k) 74 param.prefixExtSecretKey param.prefixExtSecretKeySize str (by omega) hf.extSecret
      (by omega) (by rw [List.take_of_length_le (l := privBytes k) (by omega)]; exact Nat.le_trans hl hs)
    rw [List.take_of_length_le (l := privBytes k) (by omega)] at h
    exact h
  · intro h8
    have hl := Own.ext_length_le (extPublic param) (pubBytes pk) (by rw [hf.extPublic_length]; exact h8) l2
    refine ⟨?_, hl⟩
    rw [expubkeyToString, e2, Res.ok_bind, Exkey.over_all (by rw [l2]; simp), Own.xpub]
    have h := toBase58Check_eq host (pubBytes pk) 74 param.prefixExtPublicKey param.prefixExtPublicKeySize str (by omega) hf.extPublic
      (by omega) (by rw [List.take_of_length_le (l := pubBytes pk) (by omega)]; exact Nat.le_trans hl hs)
    rw [List.take_of_length_le (l := pubBytes pk) (by omega)] at h
    exact h

/-- C110 (reading, private extended keys: exact behaviour). For parameters with a prefix of at most 8 bytes and every readable text that
stands for at most 82 bytes: it is accepted iff it is Base58Check text of the prefix, which has at least one byte, and 74 bytes. -/
theorem C110_exkey_from_string_spec_partial (nd : Bool) (host : Host) (cs : Bool) (param : ChainParameters) (s post : List Byte)
    (buf : ExKey) (hf : Fits param) (h8 : param.prefixExtSecretKeySize ≤ 8) (h0 : ∀ b ∈ s, b ≠ 0#8) (hr : Base58Spec.Readable cs s)
    (hb : BufPriv buf) (h82 : ∀ W, Base58Spec.decode? s = some W → W.length ≤ 82) :
    (∀ p, Base58CheckSpec.decode? s = some (extSecret param ++ p) → p.length = 74 → extSecret param ≠ [] →
      ∃ k, exkeyFromString nd host cs (s ++ 0#8 :: post) s.length buf param = .ok (k, true) ∧ BufPriv k ∧
        privBytes k = p.set 41 0#8) ∧
    ((¬ ∃ p, Base58CheckSpec.decode? s = some (extSecret param ++ p) ∧ p.length = 74 ∧ extSecret param ≠ []) →
      exkeyFromString nd host cs (s ++ 0#8 :: post) s.length buf param = .ok (buf, false)) := by
  have hpl := hf.extSecret_length
  have hpf := hf.extSecret
  have hass : assertNd nd (decide (param.prefixExtSecretKeySize ≤ 8)) = .ok () := by
    rw [decide_eq_true h8, assertNd_true]
  have hfb := fromBase58Check_readable host cs s post (List.replicate 82 0xAA#8) h0 hr (by simpa using h82)
  rw [exkeyFromString]
  simp only []
  rw [hass]
  simp only [Res.ok_bind]
  cases hd : Base58Spec.decode? s with
  | none =>
    rw [hd] at hfb
    have : Base58CheckSpec.decode? s = none := by rw [Base58CheckSpec.decode?, hd]; rfl
    rw [this, hfb]
    refine ⟨fun p hp => (by cases hp), fun _ => ?_⟩
    cases nd <;> rfl
  | some W =>
    rw [hd] at hfb
    simp only at hfb
    have h82' := h82 W hd
    have hdc : Base58CheckSpec.decode? s = Base58CheckSpec.check? W := by rw [Base58CheckSpec.decode?, hd]; rfl
    rw [hdc]
    cases hc : Base58CheckSpec.check? W with
    | none =>
      rw [hc] at hfb
      rw [hfb]
      refine ⟨fun p hp => (by cases hp), fun _ => ?_⟩
      cases nd <;> rfl
    | some q =>
      rw [hc] at hfb
      simp only at hfb
      have hWe := check?_some hc
      have hWl : W.length = q.length + 4 := by rw [hWe, List.length_append, checksum_length]
      have hass2 : assertNd nd (decide (q.length ≤ 82)) = .ok () := by
        rw [decide_eq_true (by omega), assertNd_true]
      rw [hfb]
      simp only [Res.ok_bind, hass2]
      rw [over, hWe, List.append_assoc]
      by_cases h78 : q.length = param.prefixExtSecretKeySize + 74 ∧ param.prefixExtSecretKeySize ≠ 0
      · obtain ⟨h78, hne0⟩ := h78
        have hqe : q.length - 74 = param.prefixExtSecretKeySize := by omega
        rw [if_neg (show ¬ (q.length ≤ 74 ∨ q.length > 82) by omega), if_neg (show ¬ q.length - 74 ≠ param.prefixExtSecretKeySize by omega), hqe,
          memeq, if_pos ⟨by rw [List.length_append]; omega, hpf⟩, Res.ok_bind,
          List.take_append_of_le_length (by omega)]
        constructor
        · intro p hp hpl' _
          rw [Option.some.injEq] at hp
          subst hp
          rw [List.take_left' hpl, show (extSecret param == param.prefixExtSecretKey.take param.prefixExtSecretKeySize) = true from beq_self_eq_true _, if_neg (by simp),
            List.append_assoc, List.drop_left' hpl]
          obtain ⟨k, k1, k2, k3⟩ := (C53_decode_faithful host p (Base58CheckSpec.checksum (extSecret param ++ p) ++
            List.drop (extSecret param ++ p ++ Base58CheckSpec.checksum (extSecret param ++ p)).length (List.replicate 82 0xAA#8)) buf
            ⟨⟨0#8, 0#32, 0#32, List.replicate 32 0#8⟩, List.replicate 33 0#8⟩ hb ⟨by simp, by simp⟩ hpl').1
          rw [k1]
          exact ⟨k, rfl, k2, k3⟩
        · intro hno
          have hne : q.take param.prefixExtSecretKeySize ≠ param.prefixExtSecretKey.take param.prefixExtSecretKeySize := fun he =>
            hno ⟨q.drop param.prefixExtSecretKeySize, by rw [extSecret, ← he, List.take_append_drop], by rw [List.length_drop]; omega, by
              intro hnil; rw [hnil] at hpl; exact hne0 hpl.symm⟩
          rw [beq_eq_false_iff_ne.2 hne]
          rfl
      · constructor
        · intro p hp hpl' hnn
          rw [Option.some.injEq] at hp
          refine absurd ⟨?_, ?_⟩ h78
          · rw [hp, List.length_append, hpl, hpl']
          · intro h; rw [h] at hpl; exact hnn (List.length_eq_zero_iff.mp hpl)
        · intro _
          by_cases h74 : q.length ≤ 74 ∨ q.length > 82
          · rw [if_pos h74]; rfl
          · rw [if_neg h74, if_pos (show q.length - 74 ≠ param.prefixExtSecretKeySize by omega)]; rfl

/-- C110 (reading one's own text, private extended keys): what happens, for any parameters.  With an assertion, prefixes of more than 8 bytes
stop the program; otherwise prefixes of more than 4 bytes overrun the array of 82 bytes; a text without prefix is refused; everything else
comes back as the same key. -/
theorem C110_exkey_own_text (nd : Bool) (host : Host) (cs : Bool) (param : ChainParameters) (k buf : ExKey) (post : List Byte)
    (hf : Fits param) (hsz : param.prefixExtSecretKeySize ≤ 1000000) (hk : BufPriv k) (hb : BufPriv buf) :
    exkeyFromString nd host cs (Own.xprv param k ++ 0#8 :: post) (Own.xprv param k).length buf param =
      if nd = false ∧ 8 < (extSecret param).length then .abort
      else if 4 < (extSecret param).length then .ub
      else if (extSecret param).length = 0 then .ok (buf, false)
      else .ok (k, true) := by
  have hpl := hf.extSecret_length
  have hl := privBytes_length k hk
  have hd := Own.xprv_decode param k
  have h0 : ∀ b ∈ Own.xprv param k, b ≠ 0#8 := fun b hb => (encode58_chars _ b hb).2.1
  have hrd : Base58Spec.Readable cs (Own.xprv param k) := Own.text_readable cs _ (by rw [List.length_append, hpl, hl]; omega)
  by_cases h8 : nd = false ∧ 8 < (extSecret param).length
  · rw [if_pos h8, exkeyFromString, h8.1, decide_eq_false (by omega)]
    rfl
  rw [if_neg h8]
  by_cases h4 : 4 < (extSecret param).length
  · rw [if_pos h4]
    have hass : assertNd nd (decide (param.prefixExtSecretKeySize ≤ 8)) = .ok () := by
      cases nd
      · rw [decide_eq_true (by rw [hpl] at h8; simp at h8; omega)]; rfl
      · rfl
    rw [exkeyFromString]
    simp only []
    rw [hass]
    simp only [Res.ok_bind]
    rw [(fromBase58Check_ub_iff host cs _ post (List.replicate 82 0xAA#8) h0).mpr]
    · rfl
    · rintro ⟨-, h⟩
      have := h _ hd
      rw [List.length_append, checksum_length, List.length_append, hl, List.length_replicate] at this
      omega
  rw [if_neg h4]
  have hdc : Base58CheckSpec.decode? (Own.xprv param k) = some (extSecret param ++ privBytes k) := by
    rw [Base58CheckSpec.decode?, hd, Option.bind_some, check?_append]
  obtain ⟨a, b⟩ := C110_exkey_from_string_spec_partial nd host cs param _ post buf hf (by rw [hpl] at h4; omega) h0 hrd hb (by
    intro W hW
    rw [hd, Option.some.injEq] at hW
    rw [← hW, List.length_append, checksum_length, List.length_append, hl]
    omega)
  by_cases hz : (extSecret param).length = 0
  · rw [if_pos hz]
    exact b fun ⟨p, _, _, h⟩ => h (List.length_eq_zero_iff.mp hz)
  · rw [if_neg hz]
    obtain ⟨k', k1, k2, k3⟩ := a (privBytes k) hdc hl (fun h => hz (by rw [h]; rfl))
    rw [k1]
    have : k' = k := by
      have e1 := priv_decode host k' k' [] k2 k2
      have e2 := priv_decode host k k' [] hk k2
      rw [k3, privBytes_set k hk, e2, Res.ok.injEq] at e1
      exact e1.symm
    rw [this]

/-- C110 (soundness, private extended keys). Whatever the parameters, a text that is accepted is, blanks at its ends apart, the Base58Check
text of a non-empty prefix and the 74 bytes of the key delivered (the byte before the key, which ought to be 0, may be anything). -/
theorem C110_exkey_from_string_sound (nd : Bool) (host : Host) (cs : Bool) (param : ChainParameters) (s post : List Byte) (buf k : ExKey)
    (hf : Fits param) (h8 : param.prefixExtSecretKeySize ≤ 8) (h0 : ∀ b ∈ s, b ≠ 0#8) (hb : BufPriv buf)
    (h : exkeyFromString nd host cs (s ++ 0#8 :: post) s.length buf param = .ok (k, true)) :
    BufPriv k ∧ ∃ p, trim58 s = Base58CheckSpec.encode (extSecret param ++ p) ∧ p.length = 74 ∧ extSecret param ≠ [] ∧ privBytes k = p.set 41 0#8 := by
  have hr : Base58Spec.Readable cs s ∧ ∀ W, Base58Spec.decode? s = some W → W.length ≤ 82 := by
    by_contra hc
    have hass : assertNd nd (decide (param.prefixExtSecretKeySize ≤ 8)) = .ok () := by
      rw [decide_eq_true h8, assertNd_true]
    rw [exkeyFromString] at h
    simp only [] at h
    rw [hass] at h
    simp only [Res.ok_bind] at h
    rw [(fromBase58Check_ub_iff host cs s post (List.replicate 82 0xAA#8) h0).mpr (by simpa using hc)] at h
    cases h
  obtain ⟨a, b⟩ := C110_exkey_from_string_spec_partial nd host cs param s post buf hf h8 h0 hr.1 hb hr.2
  by_cases hp : ∃ p, Base58CheckSpec.decode? s = some (extSecret param ++ p) ∧ p.length = 74 ∧ extSecret param ≠ []
  · obtain ⟨p, hp1, hp2, hp3⟩ := hp
    obtain ⟨k', k1, k2, k3⟩ := a p hp1 hp2 hp3
    rw [k1] at h
    rw [Res.ok.injEq, Prod.mk.injEq] at h
    rw [← h.1]
    refine ⟨k2, p, ?_, hp2, hp3, k3⟩
    rw [Base58CheckSpec.decode?] at hp1
    cases hW : Base58Spec.decode? s with
    | none => rw [hW] at hp1; cases hp1
    | some W =>
      rw [hW, Option.bind_some] at hp1
      have hWe := check?_some hp1
      subst hWe
      exact (C16_reencode s _ hW).symm
  · rw [b hp] at h
    rw [Res.ok.injEq, Prod.mk.injEq] at h
    cases h.2

/-- C110 is violated by the code: with a prefix of 5 to 8 bytes, which the assertion admits, reading the text that was written for any
private extended key is undefined: the array of 82 bytes is overrun. -/
theorem C110_violated_exkey_overrun (nd : Bool) (host : Host) (cs : Bool) (param : ChainParameters) (k buf : ExKey) (post : List Byte)
    (hf : Fits param) (h5 : 5 ≤ param.prefixExtSecretKeySize) (h8 : param.prefixExtSecretKeySize ≤ 8) (hk : BufPriv k) (hb : BufPriv buf) :
    exkeyFromString nd host cs (Own.xprv param k ++ 0#8 :: post) (Own.xprv param k).length buf param = .ub := by
  rw [C110_exkey_own_text nd host cs param k buf post hf (by omega) hk hb, hf.extSecret_length, if_neg (by omega), if_pos (by omega)]

/-- C110 (reading, public extended keys: exact behaviour). For parameters with a prefix of at most 8 bytes and every readable text that
stands for at most 82 bytes: it is accepted iff it is Base58Check text of the prefix, which has at least one byte, and 74 bytes. -/
theorem C110_expubkey_from_string_spec_partial (nd : Bool) (host : Host) (cs : Bool) (param : ChainParameters) (s post : List Byte)
    (buf : ExPubkey) (hf : Fits param) (h8 : param.prefixExtPublicKeySize ≤ 8) (h0 : ∀ b ∈ s, b ≠ 0#8) (hr : Base58Spec.Readable cs s)
    (hb : BufPub buf) (h82 : ∀ W, Base58Spec.decode? s = some W → W.length ≤ 82) :
    (∀ p, Base58CheckSpec.decode? s = some (extPublic param ++ p) → p.length = 74 → extPublic param ≠ [] →
      ∃ k, expubkeyFromString nd host cs (s ++ 0#8 :: post) s.length buf param = .ok (k, true) ∧ BufPub k ∧
        pubBytes k = p) ∧
    ((¬ ∃ p, Base58CheckSpec.decode? s = some (extPublic param ++ p) ∧ p.length = 74 ∧ extPublic param ≠ []) →
      expubkeyFromString nd host cs (s ++ 0#8 :: post) s.length buf param = .ok (buf, false)) := by
  have hpl := hf.extPublic_length
  have hpf := hf.extPublic
  have hass : assertNd nd (decide (param.prefixExtPublicKeySize ≤ 8)) = .ok () := by
    rw [decide_eq_true h8, assertNd_true]
  have hfb := fromBase58Check_readable host cs s post (List.replicate 82 0xAA#8) h0 hr (by simpa using h82)
  rw [expubkeyFromString]
  simp only []
  rw [hass]
  simp only [Res.ok_bind]
  cases hd : Base58Spec.decode? s with
  | none =>
    rw [hd] at hfb
    have : Base58CheckSpec.decode? s = none := by rw [Base58CheckSpec.decode?, hd]; rfl
    rw [this, hfb]
    refine ⟨fun p hp => (by cases hp), fun _ => ?_⟩
    cases nd <;> rfl
  | some W =>
    rw [hd] at hfb
    simp only at hfb
    have h82' := h82 W hd
    have hdc : Base58CheckSpec.decode? s = Base58CheckSpec.check? W := by rw [Base58CheckSpec.decode?, hd]; rfl
    rw [hdc]
    cases hc : Base58CheckSpec.check? W with
    | none =>
      rw [hc] at hfb
      rw [hfb]
      refine ⟨fun p hp => (by cases hp), fun _ => ?_⟩
      cases nd <;> rfl
    | some q =>
      rw [hc] at hfb
      simp only at hfb
      have hWe := check?_some hc
      have hWl : W.length = q.length + 4 := by rw [hWe, List.length_append, checksum_length]
      have hass2 : assertNd nd (decide (q.length ≤ 82)) = .ok () := by
        rw [decide_eq_true (by omega), assertNd_true]
      rw [hfb]
      simp only [Res.ok_bind, hass2]
      rw [over, hWe, List.append_assoc]
      by_cases h78 : q.length = param.prefixExtPublicKeySize + 74 ∧ param.prefixExtPublicKeySize ≠ 0
      · obtain ⟨h78, hne0⟩ := h78
        have hqe : q.length - 74 = param.prefixExtPublicKeySize := by omega
        rw [if_neg (show ¬ (q.length ≤ 74 ∨ q.length > 82) by omega), if_neg (show ¬ q.length - 74 ≠ param.prefixExtPublicKeySize by omega), hqe,
          memeq, if_pos ⟨by rw [List.length_append]; omega, hpf⟩, Res.ok_bind,
          List.take_append_of_le_length (by omega)]
        constructor
        · intro p hp hpl' _
          rw [Option.some.injEq] at hp
          subst hp
          rw [List.take_left' hpl, show (extPublic param == param.prefixExtPublicKey.take param.prefixExtPublicKeySize) = true from beq_self_eq_true _, if_neg (by simp),
            List.append_assoc, List.drop_left' hpl]
          obtain ⟨k, k1, k2, k3⟩ := (C53_decode_faithful host p (Base58CheckSpec.checksum (extPublic param ++ p) ++
            List.drop (extPublic param ++ p ++ Base58CheckSpec.checksum (extPublic param ++ p)).length (List.replicate 82 0xAA#8)) 
            ⟨⟨0#8, 0#32, 0#32, List.replicate 32 0#8⟩, List.replicate 32 0#8⟩ buf ⟨by simp, by simp⟩ hb hpl').2
          rw [k1]
          exact ⟨k, rfl, k2, k3⟩
        · intro hno
          have hne : q.take param.prefixExtPublicKeySize ≠ param.prefixExtPublicKey.take param.prefixExtPublicKeySize := fun he =>
            hno ⟨q.drop param.prefixExtPublicKeySize, by rw [extPublic, ← he, List.take_append_drop], by rw [List.length_drop]; omega, by
              intro hnil; rw [hnil] at hpl; exact hne0 hpl.symm⟩
          rw [beq_eq_false_iff_ne.2 hne]
          rfl
      · constructor
        · intro p hp hpl' hnn
          rw [Option.some.injEq] at hp
          refine absurd ⟨?_, ?_⟩ h78
          · rw [hp, List.length_append, hpl, hpl']
          · intro h; rw [h] at hpl; exact hnn (List.length_eq_zero_iff.mp hpl)
        · intro _
          by_cases h74 : q.length ≤ 74 ∨ q.length > 82
          · rw [if_pos h74]; rfl
          · rw [if_neg h74, if_pos (show q.length - 74 ≠ param.prefixExtPublicKeySize by omega)]; rfl

/-- C110 (reading one's own text, public extended keys): what happens, for any parameters.  With an assertion, prefixes of more than 8 bytes
stop the program; otherwise prefixes of more than 4 bytes overrun the array of 82 bytes; a text without prefix is refused; everything else
comes back as the same key. -/
theorem C110_expubkey_own_text (nd : Bool) (host : Host) (cs : Bool) (param : ChainParameters) (k buf : ExPubkey) (post : List Byte)
    (hf : Fits param) (hsz : param.prefixExtPublicKeySize ≤ 1000000) (hk : BufPub k) (hb : BufPub buf) :
    expubkeyFromString nd host cs (Own.xpub param k ++ 0#8 :: post) (Own.xpub param k).length buf param =
      if nd = false ∧ 8 < (extPublic param).length then .abort
      else if 4 < (extPublic param).length then .ub
      else if (extPublic param).length = 0 then .ok (buf, false)
      else .ok (k, true) := by
  have hpl := hf.extPublic_length
  have hl := pubBytes_length k hk
  have hd := Own.xpub_decode param k
  have h0 : ∀ b ∈ Own.xpub param k, b ≠ 0#8 := fun b hb => (encode58_chars _ b hb).2.1
  have hrd : Base58Spec.Readable cs (Own.xpub param k) := Own.text_readable cs _ (by rw [List.length_append, hpl, hl]; omega)
  by_cases h8 : nd = false ∧ 8 < (extPublic param).length
  · rw [if_pos h8, expubkeyFromString, h8.1, decide_eq_false (by omega)]
    rfl
  rw [if_neg h8]
  by_cases h4 : 4 < (extPublic param).length
  · rw [if_pos h4]
    have hass : assertNd nd (decide (param.prefixExtPublicKeySize ≤ 8)) = .ok () := by
      cases nd
      · rw [decide_eq_true (by rw [hpl] at h8; simp at h8; omega)]; rfl
      · rfl
    rw [expubkeyFromString]
    simp only []
    rw [hass]
    simp only [Res.ok_bind]
    rw [(fromBase58Check_ub_iff host cs _ post (List.replicate 82 0xAA#8) h0).mpr]
    · rfl
    · rintro ⟨-, h⟩
      have := h _ hd
      rw [List.length_append, checksum_length, List.length_append, hl, List.length_replicate] at this
      omega
  rw [if_neg h4]
  have hdc : Base58CheckSpec.decode? (Own.xpub param k) = some (extPublic param ++ pubBytes k) := by
    rw [Base58CheckSpec.decode?, hd, Option.bind_some, check?_append]
  obtain ⟨a, b⟩ := C110_expubkey_from_string_spec_partial nd host cs param _ post buf hf (by rw [hpl] at h4; omega) h0 hrd hb (by
    intro W hW
    rw [hd, Option.some.injEq] at hW
    rw [← hW, List.length_append, checksum_length, List.length_append, hl]
    omega)
  by_cases hz : (extPublic param).length = 0
  · rw [if_pos hz]
    exact b fun ⟨p, _, _, h⟩ => h (List.length_eq_zero_iff.mp hz)
  · rw [if_neg hz]
    obtain ⟨k', k1, k2, k3⟩ := a (pubBytes k) hdc hl (fun h => hz (by rw [h]; rfl))
    rw [k1]
    have : k' = k := by
      have e1 := pub_decode host k' k' [] k2 k2
      have e2 := pub_decode host k k' [] hk k2
      rw [k3, e2, Res.ok.injEq] at e1
      exact e1.symm
    rw [this]

/-- C110 (soundness, public extended keys). Whatever the parameters, a text that is accepted is, blanks at its ends apart, the Base58Check
text of a non-empty prefix and the 74 bytes of the key delivered. -/
theorem C110_expubkey_from_string_sound (nd : Bool) (host : Host) (cs : Bool) (param : ChainParameters) (s post : List Byte) (buf k : ExPubkey)
    (hf : Fits param) (h8 : param.prefixExtPublicKeySize ≤ 8) (h0 : ∀ b ∈ s, b ≠ 0#8) (hb : BufPub buf)
    (h : expubkeyFromString nd host cs (s ++ 0#8 :: post) s.length buf param = .ok (k, true)) :
    BufPub k ∧ ∃ p, trim58 s = Base58CheckSpec.encode (extPublic param ++ p) ∧ p.length = 74 ∧ extPublic param ≠ [] ∧ pubBytes k = p := by
  have hr : Base58Spec.Readable cs s ∧ ∀ W, Base58Spec.decode? s = some W → W.length ≤ 82 := by
    by_contra hc
    have hass : assertNd nd (decide (param.prefixExtPublicKeySize ≤ 8)) = .ok () := by
      rw [decide_eq_true h8, assertNd_true]
    rw [expubkeyFromString] at h
    simp only [] at h
    rw [hass] at h
    simp only [Res.ok_bind] at h
    rw [(fromBase58Check_ub_iff host cs s post (List.replicate 82 0xAA#8) h0).mpr (by simpa using hc)] at h
    cases h
  obtain ⟨a, b⟩ := C110_expubkey_from_string_spec_partial nd host cs param s post buf hf h8 h0 hr.1 hb hr.2
  by_cases hp : ∃ p, Base58CheckSpec.decode? s = some (extPublic param ++ p) ∧ p.length = 74 ∧ extPublic param ≠ []
  · obtain ⟨p, hp1, hp2, hp3⟩ := hp
    obtain ⟨k', k1, k2, k3⟩ := a p hp1 hp2 hp3
    rw [k1] at h
    rw [Res.ok.injEq, Prod.mk.injEq] at h
    rw [← h.1]
    refine ⟨k2, p, ?_, hp2, hp3, k3⟩
    rw [Base58CheckSpec.decode?] at hp1
    cases hW : Base58Spec.decode? s with
    | none => rw [hW] at hp1; cases hp1
    | some W =>
      rw [hW, Option.bind_some] at hp1
      have hWe := check?_some hp1
      subst hWe
      exact (C16_reencode s _ hW).symm
  · rw [b hp] at h
    rw [Res.ok.injEq, Prod.mk.injEq] at h
    cases h.2

/-- C110 is violated by the code: with a prefix of 5 to 8 bytes, which the assertion admits, reading the text that was written for any
public extended key is undefined: the array of 82 bytes is overrun. -/
theorem C110_violated_expubkey_overrun (nd : Bool) (host : Host) (cs : Bool) (param : ChainParameters) (k buf : ExPubkey) (post : List Byte)
    (hf : Fits param) (h5 : 5 ≤ param.prefixExtPublicKeySize) (h8 : param.prefixExtPublicKeySize ≤ 8) (hk : BufPub k) (hb : BufPub buf) :
    expubkeyFromString nd host cs (Own.xpub param k ++ 0#8 :: post) (Own.xpub param k).length buf param = .ub := by
  rw [C110_expubkey_own_text nd host cs param k buf post hf (by omega) hk hb, hf.extPublic_length, if_neg (by omega), if_pos (by omega)]

/-- C110 (round trip of extended keys, the part that holds): prefixes of 1 to 4 bytes. -/
theorem C110_exkey_roundtrip_partial (nd : Bool) (host : Host) (cs : Bool) (param : ChainParameters) (k kbuf : ExKey) (pk pbuf : ExPubkey)
    (str post : List Byte) (hf : Fits param) (hk : BufPriv k) (hkb : BufPriv kbuf) (hpk : BufPub pk) (hpb : BufPub pbuf)
    (hs : toBase58CheckLength 74 8 ≤ str.length) :
    (1 ≤ param.prefixExtSecretKeySize → param.prefixExtSecretKeySize ≤ 4 → ∃ s n, exkeyToString host k str param = .ok (s, n) ∧
      exkeyFromString nd host cs (s.take n ++ 0#8 :: post) n kbuf param = .ok (k, true)) ∧
    (1 ≤ param.prefixExtPublicKeySize → param.prefixExtPublicKeySize ≤ 4 → ∃ s n, expubkeyToString host pk str param = .ok (s, n) ∧
      expubkeyFromString nd host cs (s.take n ++ 0#8 :: post) n pbuf param = .ok (pk, true)) := by
  obtain ⟨w1, w2⟩ := C110_exkey_to_string host param k pk str hf hk hpk hs
  constructor
  · intro h1 h4
    refine ⟨_, _, (w1 (by omega)).1, ?_⟩
    rw [BtcHash.take_over rfl, C110_exkey_own_text nd host cs param k kbuf post hf (by omega) hk hkb, hf.extSecret_length, if_neg (by omega),
      if_neg (by omega), if_neg (by omega)]
  · intro h1 h4
    refine ⟨_, _, (w2 (by omega)).1, ?_⟩
    rw [BtcHash.take_over rfl, C110_expubkey_own_text nd host cs param pk pbuf post hf (by omega) hpk hpb, hf.extPublic_length, if_neg (by omega),
      if_neg (by omega), if_neg (by omega)]

/-- C110 is violated by the code: without a prefix, the text of no extended key is accepted. -/
theorem C110_violated_exkey_no_prefix (nd : Bool) (host : Host) (cs : Bool) (param : ChainParameters) (k kbuf : ExKey) (pk pbuf : ExPubkey)
    (post : List Byte) (hf : Fits param) (hk : BufPriv k) (hkb : BufPriv kbuf) (hpk : BufPub pk) (hpb : BufPub pbuf) :
    (param.prefixExtSecretKeySize = 0 →
      exkeyFromString nd host cs (Own.xprv param k ++ 0#8 :: post) (Own.xprv param k).length kbuf param = .ok (kbuf, false)) ∧
    (param.prefixExtPublicKeySize = 0 →
      expubkeyFromString nd host cs (Own.xpub param pk ++ 0#8 :: post) (Own.xpub param pk).length pbuf param = .ok (pbuf, false)) := by
  constructor
  · intro h
    rw [C110_exkey_own_text nd host cs param k kbuf post hf (by omega) hk hkb, hf.extSecret_length, if_neg (by omega),
      if_neg (by omega), if_pos (by omega)]
  · intro h
    rw [C110_expubkey_own_text nd host cs param pk pbuf post hf (by omega) hpk hpb, hf.extPublic_length, if_neg (by omega),
      if_neg (by omega), if_pos (by omega)]
