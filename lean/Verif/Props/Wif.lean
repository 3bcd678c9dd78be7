import Verif.Model.Key
import Verif.Spec.Wif
import Verif.Props.Address
/-! Property theorems C45, C46 (wallet import format, `src/btc/key.c`) and the part of C42 about it. -/
open Key AddressSpec WifSpec Base58Check

theorem net_secret (net : Network) : net.param.prefixSecretKeySize ≤ net.param.prefixSecretKey.length ∧
    net.param.prefixSecretKeySize = 1 ∧
    net.param.prefixSecretKey.take net.param.prefixSecretKeySize = [net.secretVersion] := by
  cases net <;> decide

theorem wif_payload_length (net : Network) (key : List Byte) (c : Bool) (h : key.length = 32) :
    (payload net key c).length = if c then 34 else 33 := by
  cases c <;> simp [payload, h]

theorem wif_length_le (net : Network) (key : List Byte) (c : Bool) (h : key.length = 32) :
    (wif net key c).length ≤ toBase58CheckLength 32 8 := by
  have := encodeCheck_length_le (payload net key c)
  rw [wif_payload_length net key c h] at this
  have e : toBase58CheckLength 32 8 = Base58.toBase58Length 44 := rfl
  rw [e]
  rw [wif]
  unfold Base58.toBase58Length at *
  cases c <;> simp at this <;> omega

/-- C45 (what is written). For every 32-byte key, flag and network, `fingera_btc_key_to_string` writes the
text of the wallet import format into a buffer of `fingera_key_string_max_length()` bytes and returns
its length. -/
theorem C45_key_to_string (host : Host) (net : Network) (key str : List Byte) (c : Bool)
    (hk : key.length = 32) (hs : toBase58CheckLength 32 8 ≤ str.length) :
    keyToString host key str c net.param = .ok (over (wif net key c) str, (wif net key c).length) := by
  obtain ⟨n1, n2, n3⟩ := net_secret net
  have hl := Nat.le_trans (wif_length_le net key c hk) hs
  cases c with
  | false =>
    have e : payload net key false = net.param.prefixSecretKey.take net.param.prefixSecretKeySize ++ key.take 32 := by
      rw [n3, List.take_of_length_le (by omega)]; simp [payload]
    rw [wif, e] at hl ⊢
    show Base58Check.toBase58Check _ _ _ _ _ _ = _
    exact toBase58Check_eq host key 32 _ _ str (by omega) n1 (by omega) hl
  | true =>
    have e33 : wr (key.take 32 ++ (List.replicate 33 0xAA#8).drop 32) 32 1#8 = .ok (key ++ [1#8]) := by
      rw [List.take_of_length_le (by omega), show (List.replicate 33 0xAA#8 : List Byte).drop 32 = [0xAA#8] from rfl, wr,
        if_pos (by simp [hk]), List.set_append_right _ _ (by omega), hk]
      rfl
    have e : payload net key true = net.param.prefixSecretKey.take net.param.prefixSecretKeySize ++ (key ++ [1#8]).take 33 := by
      rw [n3, List.take_of_length_le (by simp [hk])]; simp [payload]
    rw [wif, e] at hl ⊢
    rw [keyToString, if_pos rfl]
    simp only []
    rw [memcpy_ok _ _ _ _ (by omega) (by simp)]
    simp only [List.take_zero, List.nil_append, Nat.zero_add, Res.ok_bind]
    rw [e33]
    simp only [Res.ok_bind]
    exact toBase58Check_eq host (key ++ [1#8]) 33 _ _ str (by simp [hk]) n1 (by omega) hl

/-- The text is in the form the decoder reads: no NUL, 7-bit. -/
theorem wif_decode (net : Network) (key : List Byte) (c : Bool) :
    Base58Spec.decode? (wif net key c) = some (payload net key c ++ Base58CheckSpec.checksum (payload net key c)) :=
  decode_encode58 _

/-- What `fingera_btc_key_from_string` makes of a decoded payload. -/
def wifResult (net : Network) (p key32 : List Byte) (flag : Int) : FromString :=
  if p.length = 33 then
    if p.take 1 = [net.secretVersion] then ⟨true, over (p.drop 1) key32, 0⟩ else ⟨false, key32, 0⟩
  else if p.length = 34 ∧ p.getLast? = some 1#8 then
    if p.take 1 = [net.secretVersion] then ⟨true, over ((p.drop 1).take 32) key32, 1⟩ else ⟨false, key32, 1⟩
  else ⟨false, key32, flag⟩

theorem wifFinish_eq (net : Network) (p chk pad key32 : List Byte) (flag : Int) (hp : 33 ≤ p.length)
    (hk : 32 ≤ key32.length) :
    wifFinish (p ++ chk ++ pad) key32 flag net.param =
      .ok (if p.take 1 = [net.secretVersion] then ⟨true, over ((p.drop 1).take 32) key32, flag⟩
        else ⟨false, key32, flag⟩) := by
  obtain ⟨n1, n2, n3⟩ := net_secret net
  have hl : (p ++ chk ++ pad).length ≥ 33 := by simp only [List.length_append]; omega
  rw [wifFinish, memeq, if_pos ⟨by omega, by omega⟩, n3, n2]
  simp only [Res.ok_bind]
  rw [show (p ++ chk ++ pad).take 1 = p.take 1 by
    rw [List.append_assoc, List.take_append_of_le_length (by omega)]]
  by_cases h : p.take 1 = [net.secretVersion]
  · rw [if_pos h, h]
    simp only [beq_self_eq_true, Bool.not_true, Bool.false_eq_true, if_false]
    rw [memcpy_ok _ _ _ _ (by rw [List.length_drop]; omega) (by omega)]
    have e : ((p ++ chk ++ pad).drop 1).take 32 = (p.drop 1).take 32 := by
      rw [List.append_assoc, List.drop_append_of_le_length (by omega),
        List.take_append_of_le_length (by rw [List.length_drop]; omega)]
    rw [Res.ok_bind, e]
    have hl : ((p.drop 1).take 32).length = 32 := by rw [List.length_take, List.length_drop]; omega
    simp only [List.take_zero, List.nil_append, Nat.zero_add, Res.pure_eq, over, hl]
  · rw [if_neg h]
    have : (p.take 1 == [net.secretVersion]) = false := by simpa using h
    rw [this]
    rfl

/-- C46 (exact behaviour). Let `s` be any string without NUL (readable, see `Base58Spec.Readable`).  If `s` is not
base58, or its bytes fail the checksum, the result is 0 and nothing is written.  If it stands for
a payload with a correct checksum, the result is `wifResult`.  All this as long as `s` stands for at
most 40 bytes. -/
theorem C46_from_string_spec_partial (nd : Bool) (host : Host) (cs : Bool) (net : Network) (s post key32 : List Byte) (flag : Int)
    (h0 : ∀ b ∈ s, b ≠ 0#8) (hr : Base58Spec.Readable cs s)
    (hk : 32 ≤ key32.length) (h40 : ∀ W, Base58Spec.decode? s = some W → W.length ≤ 40) :
    keyFromString nd host cs (s ++ 0#8 :: post) s.length key32 flag net.param =
      .ok (match Base58CheckSpec.decode? s with
        | none => ⟨false, key32, flag⟩
        | some p => wifResult net p key32 flag) := by
  obtain ⟨n1, n2, n3⟩ := net_secret net
  have hass : assertNd nd (decide (net.param.prefixSecretKeySize ≤ 8)) = .ok () := by
    rw [n2]; cases nd <;> rfl
  have hfb := fromBase58Check_readable host cs s post (List.replicate 40 0xAA#8) h0 hr (by simpa using h40)
  rw [keyFromString, hass]
  simp only [Res.ok_bind]
  cases hd : Base58Spec.decode? s with
  | none =>
    rw [hd] at hfb
    have : Base58CheckSpec.decode? s = none := by rw [Base58CheckSpec.decode?, hd]; rfl
    rw [this, hfb]
    rfl
  | some W =>
    rw [hd] at hfb
    simp only at hfb
    have h40' := h40 W hd
    have hdc : Base58CheckSpec.decode? s = Base58CheckSpec.check? W := by rw [Base58CheckSpec.decode?, hd]; rfl
    rw [hdc]
    cases hc : Base58CheckSpec.check? W with
    | none =>
      rw [hc] at hfb
      rw [hfb]
      rfl
    | some p =>
      rw [hc] at hfb
      have hWe := check?_some hc
      have hWl : W.length = p.length + 4 := by rw [hWe, List.length_append, checksum_length]
      rw [hfb]
      simp only [Res.ok_bind]
      rw [wifResult, n2]
      by_cases h32 : p.length ≤ 32
      · rw [if_pos h32, if_neg (by omega), if_neg (by omega)]; rfl
      rw [if_neg h32]
      rw [over, hWe]
      by_cases h33 : p.length = 33
      · rw [if_neg (by omega), if_pos h33]
        refine (wifFinish_eq net p _ _ key32 0 (by omega) hk).trans ?_
        rw [List.take_of_length_le (l := p.drop 1) (by rw [List.length_drop]; omega)]
      rw [if_pos (by omega), if_neg h33]
      by_cases h34 : p.length = 34
      · rw [if_neg (by omega)]
        have hr : rd (p ++ Base58CheckSpec.checksum p ++
            (List.replicate 40 0xAA#8).drop (p ++ Base58CheckSpec.checksum p).length) (p.length - 1) =
            .ok (p[p.length - 1]'(by omega)) := by
          rw [rd, List.append_assoc, List.getElem?_append_left (by omega), List.getElem?_eq_getElem (by omega)]
        rw [hr]
        simp only [Res.ok_bind]
        rw [List.getLast?_eq_getElem?, List.getElem?_eq_getElem (by omega)]
        by_cases h1 : p[p.length - 1]'(by omega) = 1#8
        · rw [if_neg (by simp [h1]), if_pos ⟨h34, by rw [h1]⟩]
          exact wifFinish_eq net p _ _ key32 1 (by omega) hk
        · rw [if_pos h1, if_neg (by simp [h1])]; rfl
      · rw [if_pos (by omega), if_neg (by simp [h34])]
        rfl

/-- C46 is violated by the code: texts that are not readable (too long for `int`, or, where `char` is signed, scanned up to a
negative character), and texts that stand for more than 40 bytes, make the behaviour undefined … -/
theorem C46_violated_undefined (nd : Bool) (host : Host) (cs : Bool) (net : Network) (s post key32 : List Byte) (flag : Int)
    (h0 : ∀ b ∈ s, b ≠ 0#8) (h : ¬ (Base58Spec.Readable cs s ∧ ∀ W, Base58Spec.decode? s = some W → W.length ≤ 40)) :
    keyFromString nd host cs (s ++ 0#8 :: post) s.length key32 flag net.param = .ub := by
  obtain ⟨n1, n2, n3⟩ := net_secret net
  have hass : assertNd nd (decide (net.param.prefixSecretKeySize ≤ 8)) = .ok () := by
    rw [n2]; cases nd <;> rfl
  rw [keyFromString, hass]
  simp only [Res.ok_bind]
  rw [(fromBase58Check_ub_iff host cs s post (List.replicate 40 0xAA#8) h0).mpr (by simpa using h)]
  rfl

/-- … and no others do. -/
theorem C46_undefined_iff_partial (nd : Bool) (host : Host) (cs : Bool) (net : Network) (s post key32 : List Byte) (flag : Int)
    (h0 : ∀ b ∈ s, b ≠ 0#8) (hk : 32 ≤ key32.length) :
    keyFromString nd host cs (s ++ 0#8 :: post) s.length key32 flag net.param = .ub ↔
      ¬ (Base58Spec.Readable cs s ∧ ∀ W, Base58Spec.decode? s = some W → W.length ≤ 40) := by
  refine ⟨?_, C46_violated_undefined nd host cs net s post key32 flag h0⟩
  rintro h ⟨hr, h40⟩
  rw [C46_from_string_spec_partial nd host cs net s post key32 flag h0 hr hk h40] at h
  cases h

/-- C46 is violated by the code: a string that stands for more than 40 bytes always makes
`fingera_btc_key_from_string` write beyond its 40-byte array, before any check. -/
theorem C46_violated_overrun (nd : Bool) (host : Host) (cs : Bool) (net : Network) (s post key32 W : List Byte) (flag : Int)
    (h0 : ∀ b ∈ s, b ≠ 0#8) (hd : Base58Spec.decode? s = some W) (h40 : 40 < W.length) :
    keyFromString nd host cs (s ++ 0#8 :: post) s.length key32 flag net.param = .ub :=
  C46_violated_undefined nd host cs net s post key32 flag h0 fun h => Nat.not_le_of_lt h40 (h.2 W hd)

/-- A witness: forty-one characters `1`. -/
theorem C46_violated_witness :
    keyFromString true .little true (List.replicate 41 (chr '1') ++ [0#8]) 41 (List.replicate 32 7#8) 0 mainnet =
      .ub :=
  C46_violated_overrun true .little true .main (List.replicate 41 (chr '1')) [] (List.replicate 32 7#8) (List.replicate 41 0#8) 0
    (by decide +kernel) (by decide +kernel) (by decide)

/-- C46 (soundness). Whenever `fingera_btc_key_from_string` returns non-zero, the string, blanks at its ends
apart, is exactly the wallet import format text of the key and the flag that it delivers. -/
theorem C46_from_string_sound (nd : Bool) (host : Host) (cs : Bool) (net : Network) (s post key32 : List Byte) (flag : Int)
    (h0 : ∀ b ∈ s, b ≠ 0#8) (hk : 32 ≤ key32.length) (r : FromString)
    (h : keyFromString nd host cs (s ++ 0#8 :: post) s.length key32 flag net.param = .ok r) (hr : r.ok = true) :
    ∃ key c, key.length = 32 ∧ trim58 s = wif net key c ∧ r.key32 = over key key32 ∧
      r.isCompressed = if c then 1 else 0 := by
  have hrd : Base58Spec.Readable cs s ∧ ∀ W, Base58Spec.decode? s = some W → W.length ≤ 40 := by
    by_contra hc
    rw [C46_violated_undefined nd host cs net s post key32 flag h0 hc] at h
    cases h
  rw [C46_from_string_spec_partial nd host cs net s post key32 flag h0 hrd.1 hk hrd.2] at h
  injection h with h
  cases hd : Base58CheckSpec.decode? s with
  | none => rw [hd] at h; rw [← h] at hr; cases hr
  | some p =>
    rw [hd] at h
    simp only at h
    have htrim : trim58 s = Base58CheckSpec.encode p := by
      rw [Base58CheckSpec.decode?] at hd
      cases hW : Base58Spec.decode? s with
      | none => rw [hW] at hd; cases hd
      | some W =>
        rw [hW, Option.bind_some] at hd
        have hWe := check?_some hd
        subst hWe
        exact (C16_reencode s _ hW).symm
    rw [wifResult] at h
    have hsplit : ∀ q : List Byte, q.take 1 = [net.secretVersion] → q = net.secretVersion :: q.drop 1 := by
      intro q hq
      conv => lhs; rw [← List.take_append_drop 1 q, hq]
      rfl
    by_cases h33 : p.length = 33
    · rw [if_pos h33] at h
      by_cases hv : p.take 1 = [net.secretVersion]
      · rw [if_pos hv] at h
        refine ⟨p.drop 1, false, by rw [List.length_drop]; omega, ?_, by rw [← h], by rw [← h]; rfl⟩
        rw [htrim, wif, payload]
        simp only [Bool.false_eq_true, if_false, List.append_nil]
        rw [← hsplit p hv]
      · rw [if_neg hv] at h; rw [← h] at hr; cases hr
    · rw [if_neg h33] at h
      by_cases h34 : p.length = 34 ∧ p.getLast? = some 1#8
      · rw [if_pos h34] at h
        by_cases hv : p.take 1 = [net.secretVersion]
        · rw [if_pos hv] at h
          refine ⟨(p.drop 1).take 32, true, by rw [List.length_take, List.length_drop]; omega, ?_, by rw [← h],
            by rw [← h]; rfl⟩
          rw [htrim, wif, payload]
          simp only [if_true]
          congr 1
          conv => lhs; rw [hsplit p hv]
          congr 1
          have hne : p.drop 1 ≠ [] := by
            intro he; have := congrArg List.length he; rw [List.length_drop] at this; simp at this; omega
          have hlast : (p.drop 1).getLast hne = 1#8 := by
            rw [List.getLast_drop]
            have := h34.2
            rw [List.getLast?_eq_some_getLast (by intro he; rw [he] at h34; simp at h34)] at this
            simpa using this
          rw [← List.dropLast_concat_getLast hne, hlast]
          congr 1
          rw [List.dropLast_eq_take, List.length_drop, h34.1]
          rw [show 34 - 1 - 1 = 32 from rfl]
          rw [List.take_append_of_le_length (by rw [List.length_take, List.length_drop]; omega), List.take_take]
          rfl
        · rw [if_neg hv] at h; rw [← h] at hr; cases hr
      · rw [if_neg h34] at h; rw [← h] at hr; cases hr

/-- C45 (round trip). The text written by `fingera_btc_key_to_string` into a buffer of the documented size
is read back by `fingera_btc_key_from_string` as the same key and flag, on every network. -/
theorem C45_wif_roundtrip (nd : Bool) (host : Host) (cs : Bool) (net : Network) (key str post key32 : List Byte)
    (c : Bool) (flag : Int) (hk : key.length = 32) (hs : toBase58CheckLength 32 8 ≤ str.length)
    (hk2 : 32 ≤ key32.length) :
    ∃ s n, keyToString host key str c net.param = .ok (s, n) ∧ n ≤ toBase58CheckLength 32 8 ∧
      keyFromString nd host cs (s.take n ++ 0#8 :: post) n key32 flag net.param =
        .ok ⟨true, over key key32, if c then 1 else 0⟩ := by
  refine ⟨_, _, C45_key_to_string host net key str c hk hs, wif_length_le net key c hk, ?_⟩
  rw [BtcHash.take_over rfl]
  have hl := wif_length_le net key c hk
  have hd := wif_decode net key c
  have hpl := wif_payload_length net key c hk
  rw [C46_from_string_spec_partial nd host cs net (wif net key c) post key32 flag
    (fun b hb => (encode58_chars _ b hb).2.1) (readable_of _ _ (fun _ b hb => (encode58_chars _ b hb).2.2.1)
    (by have : toBase58CheckLength 32 8 ≤ 2929669 := by decide
        omega)) hk2 (by
      intro W hW
      rw [hd] at hW
      injection hW with hW
      rw [← hW, List.length_append, checksum_length, hpl]
      cases c <;> simp)]
  rw [Base58CheckSpec.decode?, hd, Option.bind_some, check?_append]
  simp only
  rw [wifResult, hpl]
  cases c with
  | false => simp [payload]
  | true =>
    have hg : (payload net key true).getLast? = some 1#8 := by
      rw [payload, if_pos rfl, ← List.cons_append, List.getLast?_concat]
    rw [hg]
    simp [payload, hk, List.take_append_of_le_length]

/-- C42 (wallet import format). A text written for one network is refused for every network with another
version byte: mainnet against test and regtest. -/
theorem C42_wif_networks (nd : Bool) (host : Host) (cs : Bool) (net net' : Network) (key post key32 : List Byte)
    (c : Bool) (flag : Int) (hk : key.length = 32) (hk2 : 32 ≤ key32.length)
    (hn : (net = .main) ≠ (net' = .main)) :
    ∃ f, keyFromString nd host cs (wif net key c ++ 0#8 :: post) (wif net key c).length key32 flag net'.param =
      .ok ⟨false, key32, f⟩ := by
  have hl := wif_length_le net key c hk
  have hd := wif_decode net key c
  have hpl := wif_payload_length net key c hk
  have hv : net.secretVersion ≠ net'.secretVersion := by
    revert hn; cases net <;> cases net' <;> simp [Network.secretVersion]
  rw [C46_from_string_spec_partial nd host cs net' (wif net key c) post key32 flag
    (fun b hb => (encode58_chars _ b hb).2.1) (readable_of _ _ (fun _ b hb => (encode58_chars _ b hb).2.2.1)
    (by have : toBase58CheckLength 32 8 ≤ 2929669 := by decide
        omega)) hk2 (by
      intro W hW
      rw [hd] at hW
      injection hW with hW
      rw [← hW, List.length_append, checksum_length, hpl]
      cases c <;> simp)]
  rw [Base58CheckSpec.decode?, hd, Option.bind_some, check?_append]
  simp only
  rw [wifResult, hpl]
  cases c with
  | false => exact ⟨0, by simp [payload, hv]⟩
  | true =>
    have hg : (payload net key true).getLast? = some 1#8 := by
      rw [payload, if_pos rfl, ← List.cons_append, List.getLast?_concat]
    rw [hg]
    exact ⟨1, by simp [payload, hv]⟩

/-- Concrete instances: the specified texts of the key 1 are the well-known ones … -/
theorem wif_one : wif .main (List.replicate 31 0#8 ++ [1#8]) true = cstr "KwDiBf89QgGbjEhKnhXJuH7LrciVrZi3qYjgd9M7rFU73sVHnoWn" ∧
    wif .main (List.replicate 31 0#8 ++ [1#8]) false = cstr "5HpHagT65TZzG1PH3CSu63k8DbpvD8s5ip4nEB3kEsreAnchuDf" := by decide +kernel

/-- … they are written … -/
example : keyToString .little (List.replicate 31 0#8 ++ [1#8]) (List.replicate 64 7#8) true mainnet =
    .ok (cstr "KwDiBf89QgGbjEhKnhXJuH7LrciVrZi3qYjgd9M7rFU73sVHnoWn" ++ List.replicate 12 7#8, 52) := by
  have h := C45_key_to_string .little .main (List.replicate 31 0#8 ++ [1#8]) (List.replicate 64 7#8) true (by decide) (by decide)
  rw [wif_one.1] at h
  exact h

/-- … and read, on the right network only. -/
example : keyFromString false .little true (cstr "KwDiBf89QgGbjEhKnhXJuH7LrciVrZi3qYjgd9M7rFU73sVHnoWn" ++ [0#8]) 52
    (List.replicate 33 7#8) 5 mainnet = .ok ⟨true, List.replicate 31 0#8 ++ [1#8, 7#8], 1⟩ := by
  obtain ⟨s, n, h1, -, h2⟩ := C45_wif_roundtrip false .little true .main (List.replicate 31 0#8 ++ [1#8]) (List.replicate 64 7#8) []
    (List.replicate 33 7#8) true 5 (by decide) (by decide) (by decide)
  rw [C45_key_to_string .little .main _ _ true (by decide) (by decide), Res.ok.injEq, Prod.mk.injEq] at h1
  rw [← h1.1, ← h1.2, BtcHash.take_over rfl, wif_one.1] at h2
  exact h2

example : ∃ f, keyFromString false .little true (cstr "KwDiBf89QgGbjEhKnhXJuH7LrciVrZi3qYjgd9M7rFU73sVHnoWn" ++ [0#8]) 52
    (List.replicate 33 7#8) 5 testnet = .ok ⟨false, List.replicate 33 7#8, f⟩ := by
  have h := C42_wif_networks false .little true .main .test (List.replicate 31 0#8 ++ [1#8]) [] (List.replicate 33 7#8) true 5
    (by decide) (by decide) (by simp)
  rw [wif_one.1] at h
  exact h

/-- The hypotheses of C46 are met by a string that is not accepted, too. -/
example : (∀ b ∈ cstr " 13DV5niCGP ", b ≠ 0#8 ∧ b.toNat < 128) ∧
    ∀ W, Base58Spec.decode? (cstr " 13DV5niCGP ") = some W → W.length ≤ 40 := by
  refine ⟨by decide +kernel, ?_⟩
  rw [show Base58Spec.decode? (cstr " 13DV5niCGP ") = some [0, 1, 2, 3, 0xF7, 0xA3, 0x55, 0xC0] by decide +kernel]
  intro W h; injection h with h; rw [← h]; decide
