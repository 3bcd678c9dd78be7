import Verif.Spec.OwnParameters
import Verif.Props.Exkey
/-! Property theorems C110: chain parameters of the user's own (`include/fingera_libc/btc/chain_parameters.h`). -/
open Key AddressSpec Base58Check

namespace Own

/-- The prefix a chain uses for secret keys (and so on): the first `…_size` bytes of the object pointed to. -/
def secret (param : ChainParameters) : List Byte := param.prefixSecretKey.take param.prefixSecretKeySize
def extSecret (param : ChainParameters) : List Byte := param.prefixExtSecretKey.take param.prefixExtSecretKeySize
def extPublic (param : ChainParameters) : List Byte := param.prefixExtPublicKey.take param.prefixExtPublicKeySize
def pubkey (param : ChainParameters) : List Byte := param.prefixPubkeyAddress.take param.prefixPubkeyAddressSize
def script (param : ChainParameters) : List Byte := param.prefixScriptAddress.take param.prefixScriptAddressSize

/-- The sizes in the parameters do not exceed the objects. -/
structure Fits (param : ChainParameters) : Prop where
  secret : param.prefixSecretKeySize ≤ param.prefixSecretKey.length
  extSecret : param.prefixExtSecretKeySize ≤ param.prefixExtSecretKey.length
  extPublic : param.prefixExtPublicKeySize ≤ param.prefixExtPublicKey.length
  pubkey : param.prefixPubkeyAddressSize ≤ param.prefixPubkeyAddress.length
  script : param.prefixScriptAddressSize ≤ param.prefixScriptAddress.length

theorem Fits.secret_length {param : ChainParameters} (h : Fits param) : (Own.secret param).length = param.prefixSecretKeySize := by
  rw [Own.secret, List.length_take]; have := h.secret; omega
theorem Fits.extSecret_length {param : ChainParameters} (h : Fits param) : (Own.extSecret param).length = param.prefixExtSecretKeySize := by
  rw [Own.extSecret, List.length_take]; have := h.extSecret; omega
theorem Fits.extPublic_length {param : ChainParameters} (h : Fits param) : (Own.extPublic param).length = param.prefixExtPublicKeySize := by
  rw [Own.extPublic, List.length_take]; have := h.extPublic; omega
theorem Fits.pubkey_length {param : ChainParameters} (h : Fits param) : (Own.pubkey param).length = param.prefixPubkeyAddressSize := by
  rw [Own.pubkey, List.length_take]; have := h.pubkey; omega
theorem Fits.script_length {param : ChainParameters} (h : Fits param) : (Own.script param).length = param.prefixScriptAddressSize := by
  rw [Own.script, List.length_take]; have := h.script; omega

/-! ## Wallet import format -/

theorem wif_payload_length (pre key : List Byte) (c : Bool) (hk : key.length = 32) :
    (pre ++ key ++ if c then [1#8] else []).length = pre.length + 32 + if c then 1 else 0 := by
  cases c <;> simp [hk]

/-- How the comparison with the prefix ends. -/
theorem wifFinish_eq (param : ChainParameters) (hf : Fits param) (p chk pad key32 : List Byte) (flag : Int)
    (hp : param.prefixSecretKeySize + 32 ≤ p.length) (hk : 32 ≤ key32.length) :
    wifFinish (p ++ chk ++ pad) key32 flag param =
      .ok (if secret param <+: p then ⟨true, over ((p.drop (secret param).length).take 32) key32, flag⟩
        else ⟨false, key32, flag⟩) := by
  have hs := hf.secret_length
  have hs' := hf.secret
  have hl : (p ++ chk ++ pad).length ≥ param.prefixSecretKeySize + 32 := by simp only [List.length_append]; omega
  rw [wifFinish, memeq, if_pos ⟨by omega, by omega⟩]
  simp only [Res.ok_bind]
  rw [show (p ++ chk ++ pad).take param.prefixSecretKeySize = p.take param.prefixSecretKeySize by
    rw [List.append_assoc, List.take_append_of_le_length (by omega)]]
  by_cases h : secret param <+: p
  · have e : p.take param.prefixSecretKeySize = param.prefixSecretKey.take param.prefixSecretKeySize := by
      have := List.prefix_iff_eq_take.mp h
      rw [hs] at this
      exact this.symm
    rw [if_pos h, e, hs]
    simp only [beq_self_eq_true, Bool.not_true, Bool.false_eq_true, if_false]
    rw [memcpy_ok _ _ _ _ (by rw [List.length_drop]; omega) (by omega)]
    have e : ((p ++ chk ++ pad).drop param.prefixSecretKeySize).take 32 = (p.drop param.prefixSecretKeySize).take 32 := by
      rw [List.append_assoc, List.drop_append_of_le_length (by omega),
        List.take_append_of_le_length (by rw [List.length_drop]; omega)]
    rw [Res.ok_bind, e]
    have hl : ((p.drop param.prefixSecretKeySize).take 32).length = 32 := by rw [List.length_take, List.length_drop]; omega
    simp only [List.take_zero, List.nil_append, Nat.zero_add, Res.pure_eq, over, hl]
  · rw [if_neg h]
    have : (p.take param.prefixSecretKeySize == param.prefixSecretKey.take param.prefixSecretKeySize) = false := by
      rw [beq_eq_false_iff_ne]
      intro he
      exact h (by rw [secret, ← he]; exact List.take_prefix _ _)
    rw [this]
    rfl

end Own
open Own

/-- C110 (writing, wallet import format). With any parameters, `fingera_btc_key_to_string` writes the Base58Check text of the prefix,
the 32 bytes of the key and, for a compressed key, a byte 1, into a buffer that has room for it, and returns its length. -/
theorem C110_key_to_string (host : Host) (param : ChainParameters) (key str : List Byte) (c : Bool) (hf : Fits param)
    (hsz : param.prefixSecretKeySize < 2 ^ 29) (hk : key.length = 32)
    (hs : (OwnSpec.wif (secret param) key c).length ≤ str.length) :
    keyToString host key str c param =
      .ok (over (OwnSpec.wif (secret param) key c) str, (OwnSpec.wif (secret param) key c).length) := by
  cases c with
  | false =>
    have e : secret param ++ key ++ (if false then [1#8] else []) =
        param.prefixSecretKey.take param.prefixSecretKeySize ++ key.take 32 := by
      rw [List.take_of_length_le (l := key) (by omega)]; simp [secret]
    rw [OwnSpec.wif, e] at hs ⊢
    show Base58Check.toBase58Check _ _ _ _ _ _ = _
    exact toBase58Check_eq host key 32 _ _ str (by omega) hf.secret (by omega) hs
  | true =>
    have e33 : wr (key.take 32 ++ (List.replicate 33 0xAA#8).drop 32) 32 1#8 = .ok (key ++ [1#8]) := by
      rw [List.take_of_length_le (by omega), show (List.replicate 33 0xAA#8 : List Byte).drop 32 = [0xAA#8] from rfl, wr,
        if_pos (by simp [hk]), List.set_append_right _ _ (by omega), hk]
      rfl
    have e : secret param ++ key ++ (if true then [1#8] else []) =
        param.prefixSecretKey.take param.prefixSecretKeySize ++ (key ++ [1#8]).take 33 := by
      rw [List.take_of_length_le (l := key ++ [1#8]) (by simp [hk])]; simp [secret]
    rw [OwnSpec.wif, e] at hs ⊢
    rw [keyToString, if_pos rfl]
    simp only []
    rw [memcpy_ok _ _ _ _ (by omega) (by simp)]
    simp only [List.take_zero, List.nil_append, Nat.zero_add, Res.ok_bind]
    rw [e33]
    simp only [Res.ok_bind]
    exact toBase58Check_eq host (key ++ [1#8]) 33 _ _ str (by simp [hk]) hf.secret (by omega) hs

/-- Base58 texts of at most 45 bytes have at most 62 characters. -/
theorem Own.encode58_45 (bs : List Byte) (h : bs.length ≤ 45) : (Base58Spec.encode bs).length ≤ 62 := by
  have hz : (bs.takeWhile (· = 0#8)).length + (bs.dropWhile (· = 0#8)).length = bs.length := by
    rw [← List.length_append, List.takeWhile_append_dropWhile]
  have hlt : Base58Spec.number bs < 256 ^ (bs.dropWhile (· = 0#8)).length := by
    have h := Base58.number_lt (bs.dropWhile (· = 0#8))
    rw [Base58.number_dropZeros] at h
    exact h
  have hb : ∀ b < 46, 256 ^ b ≤ 58 ^ (17 + b) := by decide +kernel
  have h2 := Positional.digits_length_le 58 _ _ (by omega)
    (Nat.lt_of_lt_of_le hlt (hb _ (by omega)))
  simp only [Base58Spec.encode, List.length_append, List.length_replicate, List.length_map]
  change (bs.takeWhile (· = 0#8)).length + _ ≤ _
  generalize (bs.takeWhile (· = 0#8)).length = a at *
  generalize (Positional.digits 58 (Base58Spec.number bs)).length = d at *
  omega

/-- C110 (the announced size). A buffer of `fingera_key_string_max_length()` bytes has room for the text as long as the prefix has at
most 8 bytes (although that number is computed for 44 bytes, and 45 are written for a compressed key). -/
theorem C110_key_string_max_length (param : ChainParameters) (key : List Byte) (c : Bool) (hf : Fits param) (hk : key.length = 32)
    (h8 : param.prefixSecretKeySize ≤ 8) :
    (OwnSpec.wif (secret param) key c).length ≤ toBase58CheckLength 32 8 := by
  have e : toBase58CheckLength 32 8 = 62 := rfl
  rw [e, OwnSpec.wif, Base58CheckSpec.encode]
  refine Own.encode58_45 _ ?_
  rw [List.length_append, checksum_length, Own.wif_payload_length _ key c hk, hf.secret_length]
  cases c <;> simp <;> omega

/-- What `fingera_btc_key_from_string` makes of a payload, whatever the parameters: a payload of prefix and 32 bytes is an uncompressed
key (if there is a prefix at all), one of prefix, 32 bytes and a byte 1 a compressed one. -/
def ownWifResult (param : ChainParameters) (p key32 : List Byte) (flag : Int) : FromString :=
  if p.length ≤ 32 then ⟨false, key32, flag⟩
  else if p.length = (secret param).length + 32 then
    if secret param <+: p then ⟨true, over (p.drop (secret param).length) key32, 0⟩ else ⟨false, key32, 0⟩
  else if p.length = (secret param).length + 33 ∧ p.getLast? = some 1#8 then
    if secret param <+: p then ⟨true, over ((p.drop (secret param).length).take 32) key32, 1⟩ else ⟨false, key32, 1⟩
  else ⟨false, key32, flag⟩

/-- C110 (reading, wallet import format: exact behaviour). For parameters with a prefix of at most 8 bytes and every readable text
that stands for at most 40 bytes. -/
theorem C110_key_from_string_spec_partial (nd : Bool) (host : Host) (cs : Bool) (param : ChainParameters) (s post key32 : List Byte)
    (flag : Int) (hf : Fits param) (h8 : param.prefixSecretKeySize ≤ 8) (h0 : ∀ b ∈ s, b ≠ 0#8) (hr : Base58Spec.Readable cs s)
    (hk : 32 ≤ key32.length) (h40 : ∀ W, Base58Spec.decode? s = some W → W.length ≤ 40) :
    keyFromString nd host cs (s ++ 0#8 :: post) s.length key32 flag param =
      .ok (match Base58CheckSpec.decode? s with
        | none => ⟨false, key32, flag⟩
        | some p => ownWifResult param p key32 flag) := by
  have hass : assertNd nd (decide (param.prefixSecretKeySize ≤ 8)) = .ok () := by
    rw [decide_eq_true h8]; cases nd <;> rfl
  have hsl := hf.secret_length
  have hfb := fromBase58Check_readable host cs s post (List.replicate 40 0xAA#8) h0 hr (by simpa using h40)
  rw [keyFromString, hass]
  simp only [Res.ok_bind]
  cases hd : Base58Spec.decode? s with
  | none =>
    rw [hd] at hfb
    have : Base58CheckSpec.decode? s = none := by rw [Base58CheckSpec.decode?, hd]; rfl
    rw [this, hfb]
    rfl
  | some W =>
    rw [hd] at hfb
    simp only at hfb
    have h40' := h40 W hd
    have hdc : Base58CheckSpec.decode? s = Base58CheckSpec.check? W := by rw [Base58CheckSpec.decode?, hd]; rfl
    rw [hdc]
    cases hc : Base58CheckSpec.check? W with
    | none =>
      rw [hc] at hfb
      rw [hfb]
      rfl
    | some p =>
      rw [hc] at hfb
      have hWe := check?_some hc
      have hWl : W.length = p.length + 4 := by rw [hWe, List.length_append, checksum_length]
      rw [hfb]
      simp only [Res.ok_bind]
      rw [ownWifResult, hsl]
      by_cases h32 : p.length ≤ 32
      · rw [if_pos h32, if_pos h32]; rfl
      rw [if_neg h32, if_neg h32]
      rw [over, hWe]
      by_cases h33 : p.length = param.prefixSecretKeySize + 32
      · rw [if_neg (by omega), if_pos h33]
        refine (Own.wifFinish_eq param hf p _ _ key32 0 (by omega) hk).trans ?_
        rw [hsl, List.take_of_length_le (l := p.drop _) (by rw [List.length_drop]; omega)]
      rw [if_pos (by omega), if_neg h33]
      by_cases h34 : p.length = param.prefixSecretKeySize + 33
      · rw [if_neg (by omega)]
        have hr : rd (p ++ Base58CheckSpec.checksum p ++
            (List.replicate 40 0xAA#8).drop (p ++ Base58CheckSpec.checksum p).length) (p.length - 1) =
            .ok (p[p.length - 1]'(by omega)) := by
          rw [rd, List.append_assoc, List.getElem?_append_left (by omega), List.getElem?_eq_getElem (by omega)]
        rw [hr]
        simp only [Res.ok_bind]
        rw [List.getLast?_eq_getElem?, List.getElem?_eq_getElem (by omega)]
        by_cases h1 : p[p.length - 1]'(by omega) = 1#8
        · rw [if_neg (by simp [h1]), if_pos ⟨h34, by rw [h1]⟩]
          refine (Own.wifFinish_eq param hf p _ _ key32 1 (by omega) hk).trans ?_
          rw [hsl]
        · rw [if_pos h1, if_neg (by simp [h1])]; rfl
      · rw [if_pos (by omega), if_neg (by simp [h34])]
        rfl

/-- C110 (reading one's own text, wallet import format): what happens, for any parameters.  With an assertion, prefixes of more than 8 bytes
stop the program; otherwise a text of more than 40 bytes overruns the array of 40 bytes; an uncompressed key without any prefix is
refused; everything else comes back as the same key and flag. -/
theorem C110_key_own_text (nd : Bool) (host : Host) (cs : Bool) (param : ChainParameters) (key post key32 : List Byte) (c : Bool)
    (flag : Int) (hf : Fits param) (hsz : param.prefixSecretKeySize ≤ 1000000) (hk : key.length = 32) (hk2 : 32 ≤ key32.length) :
    keyFromString nd host cs (OwnSpec.wif (secret param) key c ++ 0#8 :: post) (OwnSpec.wif (secret param) key c).length key32 flag param =
      if nd = false ∧ 8 < (secret param).length then .abort
      else if 40 < (secret param).length + 32 + (if c then 1 else 0) + 4 then .ub
      else if (secret param).length = 0 ∧ c = false then .ok ⟨false, key32, flag⟩
      else .ok ⟨true, over key key32, if c then 1 else 0⟩ := by
  have hsl := hf.secret_length
  have hpl := Own.wif_payload_length (secret param) key c hk
  have hd : Base58Spec.decode? (OwnSpec.wif (secret param) key c) = some _ := decode_encode58
    (secret param ++ key ++ (if c then [1#8] else []) ++ Base58CheckSpec.checksum (secret param ++ key ++ if c then [1#8] else []))
  have h0 : ∀ b ∈ OwnSpec.wif (secret param) key c, b ≠ 0#8 := fun b hb => (encode58_chars _ b hb).2.1
  have hrd : Base58Spec.Readable cs (OwnSpec.wif (secret param) key c) := by
    refine readable_of _ _ (fun _ b hb => (encode58_chars _ b hb).2.2.1) ?_
    have := encodeCheck_length_le (secret param ++ key ++ if c then [1#8] else [])
    rw [hpl, hsl] at this
    rw [OwnSpec.wif]
    unfold Base58.toBase58Length at this
    cases c <;> simp at this ⊢ <;> omega
  by_cases h8 : nd = false ∧ 8 < (secret param).length
  · rw [if_pos h8, keyFromString, h8.1, decide_eq_false (by omega)]
    rfl
  rw [if_neg h8]
  by_cases h40 : 40 < (secret param).length + 32 + (if c then 1 else 0) + 4
  · rw [if_pos h40]
    have hass : assertNd nd (decide (param.prefixSecretKeySize ≤ 8)) = .ok () := by
      cases nd
      · rw [decide_eq_true (by rw [hsl] at h8; simp at h8; omega)]; rfl
      · rfl
    rw [keyFromString, hass]
    simp only [Res.ok_bind]
    rw [(fromBase58Check_ub_iff host cs _ post (List.replicate 40 0xAA#8) h0).mpr]
    · rfl
    · rintro ⟨-, h⟩
      have := h _ hd
      rw [List.length_append, checksum_length, hpl, List.length_replicate] at this
      omega
  rw [if_neg h40]
  rw [C110_key_from_string_spec_partial nd host cs param _ post key32 flag hf (by rw [hsl] at h40; omega) h0 hrd hk2 (by
    intro W hW
    rw [hd] at hW
    injection hW with hW
    rw [← hW, List.length_append, checksum_length, hpl]
    omega)]
  rw [Base58CheckSpec.decode?, hd, Option.bind_some, check?_append]
  simp only
  rw [ownWifResult, hpl]
  cases c with
  | false =>
    simp only [Bool.false_eq_true, if_false, Nat.add_zero, and_true, List.append_nil]
    by_cases hz : (secret param).length = 0
    · rw [if_pos (by omega), if_pos hz]
    · rw [if_neg (by omega), if_pos trivial, if_neg hz, if_pos (List.prefix_append _ _), List.drop_left]
  | true =>
    simp only [if_true, and_false, Bool.true_eq_false, if_false]
    have hpl : (secret param ++ key ++ [1#8]).length = (secret param).length + 33 := by simp [hk]
    rw [if_neg (by omega), if_neg (by omega), if_pos ⟨trivial, by simp⟩, if_pos (by rw [List.append_assoc]; exact List.prefix_append _ _), List.append_assoc, List.drop_left,
      List.take_left' hk]

/-- C110 (round trip, the part that holds): a prefix of 1 to 3 bytes. -/
theorem C110_key_roundtrip_partial (nd : Bool) (host : Host) (cs : Bool) (param : ChainParameters) (key str post key32 : List Byte) (c : Bool)
    (flag : Int) (hf : Fits param) (h1 : 1 ≤ param.prefixSecretKeySize) (h3 : param.prefixSecretKeySize ≤ 3) (hk : key.length = 32)
    (hs : toBase58CheckLength 32 8 ≤ str.length) (hk2 : 32 ≤ key32.length) :
    ∃ s n, keyToString host key str c param = .ok (s, n) ∧ n ≤ toBase58CheckLength 32 8 ∧
      keyFromString nd host cs (s.take n ++ 0#8 :: post) n key32 flag param = .ok ⟨true, over key key32, if c then 1 else 0⟩ := by
  have hl := C110_key_string_max_length param key c hf hk (by omega)
  refine ⟨_, _, C110_key_to_string host param key str c hf (by omega) hk (by omega), hl, ?_⟩
  rw [BtcHash.take_over rfl, C110_key_own_text nd host cs param key post key32 c flag hf (by omega) hk hk2, hf.secret_length,
    if_neg (by omega), if_neg (by cases c <;> simp <;> omega), if_neg (by omega)]

/-- C110 is violated by the code: with a prefix of 5 to 8 bytes, which the assertion admits (of 4 and more for compressed keys), reading the text
that was written for any key is undefined: the array of 40 bytes is overrun. -/
theorem C110_violated_key_overrun (nd : Bool) (host : Host) (cs : Bool) (param : ChainParameters) (key post key32 : List Byte) (c : Bool)
    (flag : Int) (hf : Fits param) (h4 : 5 ≤ param.prefixSecretKeySize + if c then 1 else 0) (h8 : param.prefixSecretKeySize ≤ 8)
    (hk : key.length = 32) (hk2 : 32 ≤ key32.length) :
    keyFromString nd host cs (OwnSpec.wif (secret param) key c ++ 0#8 :: post) (OwnSpec.wif (secret param) key c).length key32 flag param =
      .ub := by
  rw [C110_key_own_text nd host cs param key post key32 c flag hf (by omega) hk hk2, hf.secret_length, if_neg (by omega), if_pos (by omega)]

/-- C110 is violated by the code: without a prefix, no text of an uncompressed key is accepted. -/
theorem C110_violated_no_prefix (nd : Bool) (host : Host) (cs : Bool) (param : ChainParameters) (key post key32 : List Byte)
    (flag : Int) (h : param.prefixSecretKeySize = 0) (hf : Fits param) (hk : key.length = 32) (hk2 : 32 ≤ key32.length) :
    keyFromString nd host cs (OwnSpec.wif (secret param) key false ++ 0#8 :: post) (OwnSpec.wif (secret param) key false).length key32 flag param =
      .ok ⟨false, key32, flag⟩ := by
  rw [C110_key_own_text nd host cs param key post key32 false flag hf (by omega) hk hk2, hf.secret_length, h]
  simp


/-- C110 (soundness, wallet import format). Whatever the parameters, whenever `fingera_btc_key_from_string` returns non-zero, the string,
blanks at its ends apart, is the text of the prefix and of the key and flag that it delivers. -/
theorem C110_key_from_string_sound (nd : Bool) (host : Host) (cs : Bool) (param : ChainParameters) (s post key32 : List Byte) (flag : Int)
    (r : FromString) (hf : Fits param) (h8 : param.prefixSecretKeySize ≤ 8) (h0 : ∀ b ∈ s, b ≠ 0#8) (hk : 32 ≤ key32.length)
    (h : keyFromString nd host cs (s ++ 0#8 :: post) s.length key32 flag param = .ok r) (hr : r.ok = true) :
    ∃ key c, key.length = 32 ∧ trim58 s = OwnSpec.wif (secret param) key c ∧ r.key32 = over key key32 ∧
      r.isCompressed = if c then 1 else 0 := by
  have hrd : Base58Spec.Readable cs s ∧ ∀ W, Base58Spec.decode? s = some W → W.length ≤ 40 := by
    by_contra hc
    have hass : assertNd nd (decide (param.prefixSecretKeySize ≤ 8)) = .ok () := by
      rw [decide_eq_true h8]; cases nd <;> rfl
    rw [keyFromString, hass] at h
    simp only [Res.ok_bind] at h
    rw [(fromBase58Check_ub_iff host cs s post (List.replicate 40 0xAA#8) h0).mpr (by simpa using hc)] at h
    cases h
  rw [C110_key_from_string_spec_partial nd host cs param s post key32 flag hf h8 h0 hrd.1 hk hrd.2] at h
  injection h with h
  cases hd : Base58CheckSpec.decode? s with
  | none => rw [hd] at h; rw [← h] at hr; cases hr
  | some p =>
    rw [hd] at h
    simp only at h
    have htrim : trim58 s = Base58CheckSpec.encode p := by
      rw [Base58CheckSpec.decode?] at hd
      cases hW : Base58Spec.decode? s with
      | none => rw [hW] at hd; cases hd
      | some W =>
        rw [hW, Option.bind_some] at hd
        have hWe := check?_some hd
        subst hWe
        exact (C16_reencode s _ hW).symm
    rw [ownWifResult] at h
    split at h
    · rw [← h] at hr; cases hr
    split at h
    · rename_i h33
      split at h
      · rename_i hv
        obtain ⟨t, rfl⟩ := hv
        rw [List.drop_left] at h
        rw [List.length_append] at h33
        refine ⟨t, false, by omega, ?_, by rw [← h], by rw [← h]; rfl⟩
        rw [htrim, OwnSpec.wif]
        simp
      · rw [← h] at hr; cases hr
    split at h
    · rename_i h34
      split at h
      · rename_i hv
        obtain ⟨t, rfl⟩ := hv
        obtain ⟨h34, hlast⟩ := h34
        rw [List.drop_left] at h
        rw [List.length_append] at h34
        have hne : t ≠ [] := by rintro rfl; simp at h34
        have ht : t = t.take 32 ++ [1#8] := by
          have h2 : t.getLast hne = 1#8 := by
            rw [List.getLast?_append, List.getLast?_eq_some_getLast hne] at hlast
            simpa using hlast
          have h3 := List.dropLast_concat_getLast hne
          rw [h2, List.dropLast_eq_take, show t.length - 1 = 32 by omega] at h3
          exact h3.symm
        refine ⟨t.take 32, true, by rw [List.length_take]; omega, ?_, by rw [← h], by rw [← h]; rfl⟩
        rw [htrim, OwnSpec.wif]
        simp only [if_true]
        rw [List.append_assoc, ← ht]
      · rw [← h] at hr; cases hr
    · rw [← h] at hr; cases hr
