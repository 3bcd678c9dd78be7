import Verif.Lemmas.Sign
/-! Property theorems C55 and C65 to C69 (ECDSA, `src/btc/key.c`). -/
open Key SecpLib DerSpec Secp256k1 WordSpec Endian

namespace DerSpec

theorem derInt_low (v : Nat) (h : v < 2 ^ 255) : ∃ c, derInt v = 0x02#8 :: BitVec.ofNat 8 c.length :: c ∧ beNat c = v ∧
    c.length ≤ 32 := by
  have e : (256:Nat) ^ 32 = 2 ^ 256 := by norm_num
  have h256 : v < 256 ^ 32 := lt_trans h (by norm_num)
  obtain ⟨h1, h2⟩ := bytesOf_spec v h256
  rw [derInt]
  cases hb : bytesOf v with
  | nil => exact ⟨_, rfl, by rw [hb] at h1; rw [← h1]; rfl, by simp⟩
  | cons b bs =>
    rw [hb] at h1 h2
    simp only []
    by_cases hlt : b.toNat < 128
    · rw [if_pos hlt]; exact ⟨_, rfl, h1, h2⟩
    · rw [if_neg hlt]
      refine ⟨_, rfl, (beNat_zeros 1 (b :: bs)).trans h1, ?_⟩
      by_contra hc
      have hbs : bs.length = 31 := by simp at hc h2; omega
      rw [beNat_cons, hbs] at h1
      have := Nat.mul_le_mul_right (256 ^ 31) (not_lt.1 hlt)
      have e2 : 128 * 256 ^ 31 = 2 ^ 255 := by norm_num
      omega

end DerSpec

namespace Key

theorem lowRSig_range {key hash : List Byte} {r s : Nat} (h : LowRSig key hash r s) :
    0 < r ∧ r < n ∧ r < 2 ^ 255 ∧ 0 < s ∧ s ≤ n / 2 := by
  obtain ⟨i, h1, h2, -⟩ := h
  have := detSig_range h1
  exact ⟨this.1, this.2.1, h2, this.2.2⟩

theorem verify_mod (Q : Pt) (z r s : Nat) : verify Q (z % n) r s = verify Q z r s := by
  rw [verify_eq, verify_eq, vpoint, vpoint, Nat.mod_mul_mod]

theorem signatureEncode_eq (sig : Sig) (out : List Byte) (hr : sig.r < n) (hs : sig.s < n) (ho : 72 ≤ out.length) :
    signatureEncode sig out = .ok (over (derSig sig.r sig.s) out, (derSig sig.r sig.s).length) ∧
      (derSig sig.r sig.s).length ≤ 72 := by
  have l1 := derInt_length sig.r (lt_trans hr n_lt256)
  have l2 := derInt_length sig.s (lt_trans hs n_lt256)
  have hl : (derSig sig.r sig.s).length ≤ 72 := by
    rw [derSig, List.length_cons, List.length_cons, List.length_append]; omega
  refine ⟨?_, hl⟩
  rw [signatureEncode, sigSerializeDer]
  simp only []
  rw [if_neg (by omega)]
  have := memcpy_over [] out (derSig sig.r sig.s) 0 (derSig sig.r sig.s).length rfl (by omega)
    (by rw [List.length_nil]; omega)
  rw [over_nil, List.nil_append, List.take_of_length_le (le_refl _)] at this
  rw [this]; rfl

end Key

/-- C55. For every valid key, every 32-byte hash and any number of attempts: if `fingera_btc_key_sign` returns, the
signature is `(r, s)` of ECDSA (SEC 1, 4.1.3) with this key and hash for some nonce `k` from 1 to `n - 1`; `r` has a
clear top bit and `s` is in the lower half, so that neither needs a pad byte in DER and the DER form
has at most 70 bytes. -/
theorem C55_sign_low_r (nd : Bool) (host : Host) (sf fuel : Nat) (key hash : List Byte) (sig : Sig) (hv : ValidKey key)
    (hh : hash.length = 32) (h : keySign nd host sf fuel key hash = .ok (some sig)) :
    (∃ k, 0 < k ∧ k < n ∧ sign (beNat key) (beNat hash % n) k = some (sig.r, sig.s)) ∧
    0 < sig.r ∧ sig.r < 2 ^ 255 ∧ 0 < sig.s ∧ sig.s ≤ n / 2 ∧ (derSig sig.r sig.s).length ≤ 70 ∧
    ∃ c rest, derSig sig.r sig.s = 0x30#8 :: BitVec.ofNat 8 ((derSig sig.r sig.s).length - 2) :: 0x02#8 ::
      BitVec.ofNat 8 c.length :: (c ++ rest) ∧ beNat c = sig.r ∧ c.length ≤ 32 := by
  obtain ⟨x, hx, hx2⟩ := keySign_sound nd host sf fuel key hash hv hh
  rw [h, Res.ok.injEq] at hx
  have hl := hx2 sig hx.symm
  have hr := lowRSig_range hl
  obtain ⟨i, ⟨j, h1, -⟩, h2, -⟩ := hl
  have hs255 : sig.s < 2 ^ 255 := lt_of_le_of_lt hr.2.2.2.2 (by decide +kernel)
  obtain ⟨c, c1, c2, c3⟩ := derInt_low sig.r h2
  obtain ⟨d, d1, d2, d3⟩ := derInt_low sig.s hs255
  refine ⟨?_, hr.1, h2, hr.2.2.2.1, hr.2.2.2.2, ?_, c, derInt sig.s, ?_, c2, c3⟩
  · rw [nonceSig] at h1
    split at h1
    · rename_i hk; exact ⟨_, hk.1, hk.2, h1⟩
    · cases h1
  · rw [derSig, c1, d1]; simp; omega
  · rw [derSig, c1]; simp

/-- C65. For every valid key and 32-byte hash, and any number of attempts: a signature that `fingera_btc_key_sign`
returns is accepted by `fingera_btc_key_verify` with the public key `fingera_btc_key_get_pub` computes. -/
theorem C65_sign_verify (nd : Bool) (host : Host) (sf fuel : Nat) (key hash : List Byte) (sig : Sig) (hv : ValidKey key)
    (hh : hash.length = 32) (h : keySign nd host sf fuel key hash = .ok (some sig)) :
    ∃ pk, keyGetPub nd key = .ok pk ∧ keyVerify pk hash sig = .ok true := by
  obtain ⟨⟨k, hk0, hk, hs⟩, -, -, -, hs2, -⟩ := C55_sign_low_r nd host sf fuel key hash sig hv hh h
  obtain ⟨x, y, hp, hp2, -⟩ := pubkeyCreate_valid key hv
  refine ⟨some (x, y), ?_, ?_⟩
  · rw [keyGetPub, hp, Res.ok_bind]
    simp only []
    rw [assertNd_true]; rfl
  · have hg := get32_left hash [] hh
    rw [List.append_nil] at hg
    rw [keyVerify, sigNormalize, if_neg (by omega), ecdsaVerify, hg, Res.ok_bind, if_neg (by omega)]
    simp only []
    rw [← hp2, sign_verify hv.2.2 hk0 hk hs]; rfl

/-- C65 (through the encodings). The whole way of a signature: sign, encode both the signature and the public key (in
either form), decode both, verify: the answer is yes. -/
theorem C65_sign_send_verify (nd : Bool) (host : Host) (sf fuel : Nat) (key hash sigOut pubOut garbage : List Byte) (sig : Sig)
    (compr : Bool) (hv : ValidKey key) (hh : hash.length = 32) (ho : 72 ≤ sigOut.length)
    (hp : (if compr then 33 else 65) ≤ pubOut.length) (hg : garbage.length < 2 ^ 63)
    (h : keySign nd host sf fuel key hash = .ok (some sig)) :
    ∃ pk encSig encPub, keyGetPub nd key = .ok pk ∧
      signatureEncode sig sigOut = .ok (over encSig sigOut, encSig.length) ∧
      pubkeyEncode nd pk pubOut (if compr then 33 else 65) = .ok (over encPub pubOut, true) ∧
      encPub.length = (if compr then 33 else 65) ∧
      signatureDecode (encSig ++ garbage) (encSig ++ garbage).length = .ok (sig, true) ∧
      pubkeyDecode nd encPub encPub.length = .ok (pk, true) ∧
      keyVerify pk hash sig = .ok true := by
  obtain ⟨pk, h1, h2⟩ := C65_sign_verify nd host sf fuel key hash sig hv hh h
  obtain ⟨-, -, h3, -, h4, h5, -⟩ := C55_sign_low_r nd host sf fuel key hash sig hv hh h
  obtain ⟨x, hx, hx2⟩ := keySign_sound nd host sf fuel key hash hv hh
  rw [h, Res.ok.injEq] at hx
  have hr := lowRSig_range (hx2 sig hx.symm)
  have hsn : sig.s < n := lt_of_le_of_lt h4 (by decide +kernel)
  obtain ⟨x, y, hp1, hp2, hp3⟩ := pubkeyCreate_valid key hv
  have hpk : pk = some (x, y) := by
    rw [keyGetPub, hp1, Res.ok_bind] at h1
    simp only [] at h1
    rw [assertNd_true, Res.ok_bind, Res.pure_eq, Res.ok.injEq] at h1
    exact h1.symm
  subst hpk
  refine ⟨_, derSig sig.r sig.s, if compr then compressed x y else uncompressed x y, h1,
    (signatureEncode_eq sig sigOut hr.2.1 hsn ho).1, ?_, ?_, ?_, ?_, h2⟩
  · cases compr with
    | true =>
      simp only [if_true] at hp ⊢
      rw [pubkeyEncode, show ((33:Nat) == 65 || (33:Nat) == 33) = true from rfl, assertNd_true, Res.ok_bind,
        if_neg (by omega), serialize_eq _ 33 x y _ rfl hp, Res.ok_bind]
      simp only []
      rw [show ((33:Nat) == 33) = true from rfl, assertNd_true]; rfl
    | false =>
      simp only [Bool.false_eq_true, if_false] at hp ⊢
      rw [pubkeyEncode, show ((65:Nat) == 65 || (65:Nat) == 33) = true from rfl, assertNd_true, Res.ok_bind,
        if_neg (by omega), serialize_eq _ 65 x y _ rfl hp, Res.ok_bind]
      simp only []
      rw [show ((65:Nat) == 65) = true from rfl, assertNd_true]; rfl
  · cases compr
    · exact uncompressed_length x y
    · exact compressed_length x y
  · have hlen : (derSig sig.r sig.s ++ garbage).length < 2 ^ 64 := by rw [List.length_append]; omega
    rw [C49_strict sig.r sig.s (lt_trans hr.2.1 n_lt) (lt_trans hsn n_lt) garbage hlen, if_pos ⟨hr.2.1, hsn⟩]
  · cases compr with
    | true =>
      simp only [if_true]
      rw [compressed_length, pubkeyDecode, show ((33:Nat) == 65 || (33:Nat) == 33) = true from rfl, assertNd_true,
        Res.ok_bind, if_neg (by omega)]
      refine (parse33_iff _ (by rw [compressed_length]) (x, y)).2 ⟨?_, hp3⟩
      rw [List.take_of_length_le (by rw [compressed_length])]
    | false =>
      simp only [Bool.false_eq_true, if_false]
      rw [uncompressed_length, pubkeyDecode, show ((65:Nat) == 65 || (65:Nat) == 33) = true from rfl, assertNd_true,
        Res.ok_bind, if_neg (by omega)]
      refine (parse65_iff _ (by rw [uncompressed_length]) (x, y)).2 ⟨Or.inl ?_, hp3⟩
      rw [List.take_of_length_le (by rw [uncompressed_length])]

/-- C66. For every public key (a point of the curve), 32-byte hash and signature object (two numbers below `n`),
`fingera_btc_key_verify` answers exactly as ECDSA verification (SEC 1, 4.1.4) does. -/
theorem C66_verify_exact (Q : Nat × Nat) (hash : List Byte) (sig : Sig) (hQ : OnCurve (some Q)) (hh : hash.length = 32)
    (_hr : sig.r < n) (hs : sig.s < n) :
    keyVerify (some Q) hash sig = .ok (verify (some Q) (beNat hash) sig.r sig.s) := by
  have hg := get32_left hash [] hh
  rw [List.append_nil] at hg
  obtain ⟨r, s⟩ := sig
  have hodd : n % 2 = 1 := by decide +kernel
  rw [keyVerify, sigNormalize]
  by_cases h : n / 2 < s
  · rw [if_pos h, ecdsaVerify, hg, Res.ok_bind, if_neg (show ¬ n / 2 < n - s by omega)]
    simp only []
    rw [verify_mod, verify_neg hQ _ _ _ (show 0 < s by omega) hs]; rfl
  · rw [if_neg h, ecdsaVerify, hg, Res.ok_bind, if_neg h]
    simp only []
    rw [verify_mod]; rfl

/-- C66 (both forms). A signature and the one with `n - s` are accepted for the same keys and hashes. -/
theorem C66_both_forms (Q : Nat × Nat) (hash : List Byte) (r s : Nat) (hQ : OnCurve (some Q)) (hh : hash.length = 32)
    (hr : r < n) (h0 : 0 < s) (hs : s < n) :
    keyVerify (some Q) hash ⟨r, n - s⟩ = keyVerify (some Q) hash ⟨r, s⟩ := by
  rw [C66_verify_exact Q hash _ hQ hh hr (show n - s < n by omega), C66_verify_exact Q hash _ hQ hh hr hs,
    verify_neg hQ _ _ _ h0 hs]

/-- C66 (what is decoded never verifies by accident). A signature whose decoding failed or overflowed, the object (0, 0),
is accepted by no key for no hash; nor is any other with a zero. -/
theorem C66_zero_refused (Q : Nat × Nat) (hash : List Byte) (sig : Sig) (hQ : OnCurve (some Q)) (hh : hash.length = 32)
    (hr : sig.r < n) (hs : sig.s < n) (h : sig.r = 0 ∨ sig.s = 0) : keyVerify (some Q) hash sig = .ok false := by
  rw [C66_verify_exact Q hash sig hQ hh hr hs, verify, if_neg (by omega)]

/-- C67. For every point and both forms `fingera_btc_pubkey_encode` writes the SEC 1 encoding, and
`fingera_btc_pubkey_decode` returns the point. -/
theorem C67_pubkey_roundtrip (nd : Bool) (x y : Nat) (out : List Byte) (compr : Bool) (hQ : OnCurve (some (x, y)))
    (ho : (if compr then 33 else 65) ≤ out.length) :
    ∃ enc, enc = (if compr then compressed x y else uncompressed x y) ∧ enc.length = (if compr then 33 else 65) ∧
      pubkeyEncode nd (some (x, y)) out (if compr then 33 else 65) = .ok (over enc out, true) ∧
      pubkeyDecode nd enc enc.length = .ok (some (x, y), true) := by
  refine ⟨_, rfl, ?_, ?_, ?_⟩
  · cases compr
    · exact uncompressed_length x y
    · exact compressed_length x y
  · cases compr with
    | true =>
      simp only [if_true] at ho ⊢
      rw [pubkeyEncode, show ((33:Nat) == 65 || (33:Nat) == 33) = true from rfl, assertNd_true, Res.ok_bind,
        if_neg (by omega), serialize_eq _ 33 x y _ rfl ho, Res.ok_bind]
      simp only []
      rw [show ((33:Nat) == 33) = true from rfl, assertNd_true]; rfl
    | false =>
      simp only [Bool.false_eq_true, if_false] at ho ⊢
      rw [pubkeyEncode, show ((65:Nat) == 65 || (65:Nat) == 33) = true from rfl, assertNd_true, Res.ok_bind,
        if_neg (by omega), serialize_eq _ 65 x y _ rfl ho, Res.ok_bind]
      simp only []
      rw [show ((65:Nat) == 65) = true from rfl, assertNd_true]; rfl
  · cases compr with
    | true =>
      simp only [if_true]
      rw [compressed_length, pubkeyDecode, show ((33:Nat) == 65 || (33:Nat) == 33) = true from rfl, assertNd_true,
        Res.ok_bind, if_neg (by omega)]
      refine (parse33_iff _ (by rw [compressed_length]) (x, y)).2 ⟨?_, hQ⟩
      rw [List.take_of_length_le (by rw [compressed_length])]
    | false =>
      simp only [Bool.false_eq_true, if_false]
      rw [uncompressed_length, pubkeyDecode, show ((65:Nat) == 65 || (65:Nat) == 33) = true from rfl, assertNd_true,
        Res.ok_bind, if_neg (by omega)]
      refine (parse65_iff _ (by rw [uncompressed_length]) (x, y)).2 ⟨Or.inl ?_, hQ⟩
      rw [List.take_of_length_le (by rw [uncompressed_length])]

/-- C67 (what is accepted). `fingera_btc_pubkey_decode` returns 1 for exactly the SEC 1 encodings, compressed,
uncompressed and hybrid, of points of the curve, and then returns that point. -/
theorem C67_pubkey_decode_exact (nd : Bool) (enc : List Byte) (Q : Nat × Nat) (hl : enc.length = 33 ∨ enc.length = 65) :
    pubkeyDecode nd enc enc.length = .ok (some Q, true) ↔ OnCurve (some Q) ∧
      (enc = compressed Q.1 Q.2 ∨ enc = uncompressed Q.1 Q.2 ∨ enc = hybrid Q.1 Q.2) := by
  have hyb : (hybrid Q.1 Q.2).length = 65 := by simp [hybrid, beBytes_length]
  have a : (enc.length == 65 || enc.length == 33) = true := by rcases hl with h | h <;> rw [h] <;> rfl
  rw [pubkeyDecode, a, assertNd_true, Res.ok_bind, if_neg (by omega)]
  rcases hl with h | h
  · rw [h, parse33_iff enc (by omega) Q, List.take_of_length_le (by omega), and_comm]
    refine and_congr_right fun _ => ⟨Or.inl, ?_⟩
    rintro (h1 | h1 | h1)
    · exact h1
    · have := congrArg List.length h1; rw [uncompressed_length] at this; omega
    · have := congrArg List.length h1; rw [hyb] at this; omega
  · rw [h, parse65_iff enc (by omega) Q, List.take_of_length_le (by omega), and_comm]
    refine and_congr_right fun _ => ⟨Or.inr, ?_⟩
    rintro (h1 | h1)
    · have := congrArg List.length h1; rw [compressed_length] at this; omega
    · exact h1

/-- C67 (every other input). For an input of 33 or 65 bytes `fingera_btc_pubkey_decode` returns 1 with a point of the
curve, or 0; with `NDEBUG` every other length is refused. -/
theorem C67_pubkey_decode_total (nd : Bool) (enc : List Byte) (hl : nd = true ∨ enc.length = 33 ∨ enc.length = 65) :
    (∃ Q, OnCurve (some Q) ∧ pubkeyDecode nd enc enc.length = .ok (some Q, true)) ∨
      pubkeyDecode nd enc enc.length = .ok (none, false) := by
  by_cases hl2 : enc.length = 33 ∨ enc.length = 65
  · have a : (enc.length == 65 || enc.length == 33) = true := by rcases hl2 with h | h <;> rw [h] <;> rfl
    have e : pubkeyDecode nd enc enc.length = pubkeyParse enc enc.length := by
      rw [pubkeyDecode, a, assertNd_true, Res.ok_bind, if_neg (by omega)]
    rcases parse_total enc enc.length (le_refl _) with h | ⟨Q, h⟩
    · exact Or.inr (e.trans h)
    · exact Or.inl ⟨Q, ((C67_pubkey_decode_exact nd enc Q hl2).1 (e.trans h)).1, e.trans h⟩
  · rcases hl with h | h
    · subst h
      right
      rw [pubkeyDecode, if_pos (by omega)]; rfl
    · exact absurd h hl2

/-- C68. For every signature object (two numbers below `n`), `fingera_btc_signature_encode` writes the strict DER
encoding, at most 72 bytes, returns its length, and `fingera_btc_signature_decode`, also with bytes behind, returns
the object. -/
theorem C68_signature_roundtrip (sig : Sig) (out garbage : List Byte) (hr : sig.r < n) (hs : sig.s < n)
    (ho : 72 ≤ out.length) (hg : garbage.length < 2 ^ 63) :
    signatureEncode sig out = .ok (over (derSig sig.r sig.s) out, (derSig sig.r sig.s).length) ∧
      (derSig sig.r sig.s).length ≤ 72 ∧
      signatureDecode (derSig sig.r sig.s ++ garbage) (derSig sig.r sig.s ++ garbage).length = .ok (sig, true) := by
  obtain ⟨h1, h2⟩ := signatureEncode_eq sig out hr hs ho
  refine ⟨h1, h2, ?_⟩
  have hlen : (derSig sig.r sig.s ++ garbage).length < 2 ^ 64 := by rw [List.length_append]; omega
  rw [C49_strict sig.r sig.s (lt_trans hr n_lt) (lt_trans hs n_lt) garbage hlen, if_pos ⟨hr, hs⟩]

/-- C69. For every valid key and 32-byte hash: `fingera_btc_key_sign` neither fails an assertion nor touches foreign
memory, and if it returns, the result is the first low-R signature of the sequence of deterministic signatures
(`LowRSig`), with and without `NDEBUG`, on hosts of both byte orders. -/
theorem C69_sign_sound (nd : Bool) (host : Host) (sf fuel : Nat) (key hash : List Byte) (hv : ValidKey key)
    (hh : hash.length = 32) :
    ∃ x, keySign nd host sf fuel key hash = .ok x ∧ ∀ sig, x = some sig → LowRSig key hash sig.r sig.s :=
  keySign_sound nd host sf fuel key hash hv hh

/-- C69 (termination). If the sequence has a low-R signature, `fingera_btc_key_sign` finds it. -/
theorem C69_sign_complete (nd : Bool) (host : Host) (key hash : List Byte) (hv : ValidKey key) (hh : hash.length = 32)
    (r s : Nat) (h : LowRSig key hash r s) :
    ∃ sf0 fuel0, ∀ sf fuel, sf0 ≤ sf → fuel0 ≤ fuel → keySign nd host sf fuel key hash = .ok (some ⟨r, s⟩) :=
  keySign_complete nd host key hash hv hh r s h

/-- C69 (deterministic). Two calls with the same key and hash, on any host, return the same signature. -/
theorem C69_sign_deterministic (nd nd' : Bool) (host host' : Host) (sf fuel sf' fuel' : Nat) (key hash : List Byte)
    (sig sig' : Sig) (hv : ValidKey key) (hh : hash.length = 32)
    (h : keySign nd host sf fuel key hash = .ok (some sig)) (h' : keySign nd' host' sf' fuel' key hash = .ok (some sig')) :
    sig = sig' := by
  obtain ⟨x, hx, hx2⟩ := keySign_sound nd host sf fuel key hash hv hh
  obtain ⟨x', hx', hx2'⟩ := keySign_sound nd' host' sf' fuel' key hash hv hh
  rw [h, Res.ok.injEq] at hx
  rw [h', Res.ok.injEq] at hx'
  obtain ⟨i, h1, h2, h3⟩ := hx2 sig hx.symm
  obtain ⟨i', h1', h2', h3'⟩ := hx2' sig' hx'.symm
  have : i = i' := by
    rcases Nat.lt_trichotomy i i' with hlt | heq | hgt
    · obtain ⟨r, s, e1, e2⟩ := h3' i hlt
      have := (detSig_unique h1 e1).1
      omega
    · exact heq
    · obtain ⟨r, s, e1, e2⟩ := h3 i' hgt
      have := (detSig_unique h1' e1).1
      omega
  subst this
  obtain ⟨e1, e2⟩ := detSig_unique h1 h1'
  obtain ⟨r, s⟩ := sig
  obtain ⟨r', s'⟩ := sig'
  simp only at e1 e2
  rw [e1, e2]

/-- SHA-256 of the text "Satoshi Nakamoto", a common test message. -/
def satoshiHash : List Byte := beBytes 32 0xa0dc65ffca799873cbea0ac274015b9526505daaaed385155425f7337704883e

/-- The well-known RFC 6979 signature of this message under the key 1; its `r` is high. -/
theorem satoshi_first : nonceSig (beBytes 32 1) satoshiHash (extraData 0) 0 = some (
    0x934b1ea10a4b3c1757e2b0c017d0b6143ce3c9a7e6a4a49860d7a6ab210ee3d8,
    0x2442ce9d2b916064108014783e923ec36b49743e2ffa1c4496f01a512aafd9e5) := by decide +kernel

/-- With the counter 1 a low one is found. -/
theorem satoshi_second : nonceSig (beBytes 32 1) satoshiHash (extraData 1) 0 = some (
    23099462533675068734832077512104673167886718929082312971308796891289591527055,
    31129929380412946476399321443717707017926376749990381528678365869628811336387) := by decide +kernel

theorem satoshi_lowR : LowRSig (beBytes 32 1) satoshiHash
    23099462533675068734832077512104673167886718929082312971308796891289591527055
    31129929380412946476399321443717707017926376749990381528678365869628811336387 :=
  ⟨1, ⟨0, satoshi_second, fun i hi => absurd hi (Nat.not_lt_zero i)⟩, by norm_num, fun j hj => by
    have : j = 0 := by omega
    subst this
    exact ⟨_, _, ⟨0, satoshi_first, fun i hi => absurd hi (Nat.not_lt_zero i)⟩, by norm_num⟩⟩

/-- Instance of C69, C55 and C65 together: `fingera_btc_key_sign` returns this signature, and it verifies. -/
example : ∃ sf fuel, keySign false .little sf fuel (beBytes 32 1) satoshiHash = .ok (some ⟨
      23099462533675068734832077512104673167886718929082312971308796891289591527055,
      31129929380412946476399321443717707017926376749990381528678365869628811336387⟩) ∧
    ∃ pk, keyGetPub false (beBytes 32 1) = .ok pk ∧ keyVerify pk satoshiHash ⟨
      23099462533675068734832077512104673167886718929082312971308796891289591527055,
      31129929380412946476399321443717707017926376749990381528678365869628811336387⟩ = .ok true := by
  have hv : ValidKey (beBytes 32 1) := by decide +kernel
  have hh : satoshiHash.length = 32 := by decide +kernel
  obtain ⟨sf, fuel, h⟩ := C69_sign_complete false .little _ _ hv hh _ _ satoshi_lowR
  have h := h sf fuel (le_refl _) (le_refl _)
  exact ⟨sf, fuel, h, C65_sign_verify _ _ _ _ _ _ _ hv hh h⟩

/-- The same signature is refused for another hash. -/
example : keyVerify G (beBytes 32 7) ⟨
    23099462533675068734832077512104673167886718929082312971308796891289591527055,
    31129929380412946476399321443717707017926376749990381528678365869628811336387⟩ = .ok false := by decide +kernel

/-- The hypotheses of C66 and C67: the base point is on the curve; its encodings. -/
example : OnCurve G ∧ pubkeyDecode false (compressed
      0x79BE667EF9DCBBAC55A06295CE870B07029BFCDB2DCE28D959F2815B16F81798
      0x483ADA7726A3C4655DA4FBFC0E1108A8FD17B448A68554199C47D08FFB10D4B8) 33 = .ok (G, true) ∧
    pubkeyDecode false (0x02#8 :: beBytes 32 5) 33 = .ok (none, false) := by decide +kernel
