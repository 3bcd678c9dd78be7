import Verif.Lemmas.Exkey
import Verif.Props.Bip32
import Verif.Props.Wif
/-! Property theorems C53, C54, C63 (extended keys as bytes and text, `src/btc/exkey.c`) and the part of C42 about them. -/
open Exkey Key AddressSpec Base58Check Bip32Spec WordSpec SecpLib Secp256k1

/-- The 74 bytes BIP 32 prescribes after the version, for the fields of a private and of a public extended key; the fingerprint is
kept in memory as the number whose little-endian bytes it is. -/
def privBytes (k : ExKey) : List Byte :=
  serialize k.ext.depth (leBytes 4 k.ext.fingerprint.toNat) k.ext.child k.ext.chainCode (privData k.key)
def pubBytes (k : ExPubkey) : List Byte :=
  serialize k.ext.depth (leBytes 4 k.ext.fingerprint.toNat) k.ext.child k.ext.chainCode k.pubkey

theorem privBytes_eq (k : ExKey) (h : BufPriv k) : privBytes k = extBytes k.ext ++ [0#8] ++ k.key.take 32 := by
  rw [privBytes, serialize, extBytes, List.take_of_length_le (l := k.key) (by rw [h.1]), List.take_of_length_le (l := k.ext.chainCode) (by rw [h.2]),
    privData]
  simp only [List.append_assoc, List.singleton_append]

theorem pubBytes_eq (k : ExPubkey) (h : BufPub k) : pubBytes k = extBytes k.ext ++ k.pubkey.take 33 := by
  rw [pubBytes, serialize, extBytes, List.take_of_length_le (l := k.pubkey) (by rw [h.1]), List.take_of_length_le (l := k.ext.chainCode) (by rw [h.2])]

theorem privBytes_length (k : ExKey) (h : BufPriv k) : (privBytes k).length = 74 := by
  rw [privBytes_eq k h, List.length_append, List.length_append, extBytes_length _ (by rw [h.2]), List.length_take, h.1]; rfl

theorem pubBytes_length (k : ExPubkey) (h : BufPub k) : (pubBytes k).length = 74 := by
  rw [pubBytes_eq k h, List.length_append, extBytes_length _ (by rw [h.2]), List.length_take, h.1]; rfl

/-- C53 (layout). `fingera_exkey_encode` and `fingera_expubkey_encode` write the 74 bytes of BIP 32, nothing else. -/
theorem C53_encode_layout (host : Host) (k : ExKey) (pk : ExPubkey) (code : List Byte) (hk : BufPriv k) (hpk : BufPub pk)
    (hc : 74 ≤ code.length) :
    exkeyEncode host k code = .ok (over (privBytes k) code) ∧ expubkeyEncode host pk code = .ok (over (pubBytes pk) code) := by
  rw [privBytes_eq k hk, pubBytes_eq pk hpk]
  exact ⟨exkeyEncode_eq host k code (by rw [hk.2]) (by rw [hk.1]) hc, expubkeyEncode_eq host pk code (by rw [hpk.2]) (by rw [hpk.1]) hc⟩

theorem priv_decode (host : Host) (k buf : ExKey) (post : List Byte) (hk : BufPriv k) (hb : BufPriv buf) :
    exkeyDecode host (privBytes k ++ post) buf = .ok k := by
  have hl := privBytes_length k hk
  have hx := extBytes_length k.ext (by rw [hk.2])
  rw [exkeyDecode_eq host _ buf (by rw [List.length_append]; omega) hb.2 hb.1, privBytes_eq k hk, List.append_assoc, List.append_assoc,
    extOf_extBytes _ _ hk.2, ← List.append_assoc, List.drop_left' (by simp [hx]), List.take_left' (by rw [List.length_take, hk.1]; rfl),
    List.take_of_length_le (by rw [hk.1])]

theorem pub_decode (host : Host) (k buf : ExPubkey) (post : List Byte) (hk : BufPub k) (hb : BufPub buf) :
    expubkeyDecode host (pubBytes k ++ post) buf = .ok k := by
  have hl := pubBytes_length k hk
  have hx := extBytes_length k.ext (by rw [hk.2])
  rw [expubkeyDecode_eq host _ buf (by rw [List.length_append]; omega) hb.2 hb.1, pubBytes_eq k hk, List.append_assoc,
    extOf_extBytes _ _ hk.2, List.drop_left' hx, List.take_left' (by rw [List.length_take, hk.1]; rfl),
    List.take_of_length_le (by rw [hk.1])]

/-- C53 (round trip). Whatever the fields, decoding what was encoded gives the structure back, on either byte order (and from
one to the other), whatever the previous contents of the structure and of the memory. -/
theorem C53_roundtrip (host host' : Host) (k kbuf : ExKey) (pk pbuf : ExPubkey) (code : List Byte) (hk : BufPriv k)
    (hkb : BufPriv kbuf) (hpk : BufPub pk) (hpb : BufPub pbuf) (hc : 74 ≤ code.length) :
    (∃ out, exkeyEncode host k code = .ok out ∧ exkeyDecode host' out kbuf = .ok k) ∧
    (∃ out, expubkeyEncode host pk code = .ok out ∧ expubkeyDecode host' out pbuf = .ok pk) := by
  obtain ⟨h1, h2⟩ := C53_encode_layout host k pk code hk hpk hc
  exact ⟨⟨_, h1, priv_decode host' k kbuf _ hk hkb⟩, ⟨_, h2, pub_decode host' pk pbuf _ hpk hpb⟩⟩

/-- C53 (decoding is faithful). Any 74 bytes decode to a structure whose encoding is the same 74 bytes; for private keys up to the
byte before the key, which decoding does not look at. -/
theorem C53_decode_faithful (host : Host) (code post : List Byte) (kbuf : ExKey) (pbuf : ExPubkey) (hkb : BufPriv kbuf)
    (hpb : BufPub pbuf) (hc : code.length = 74) :
    (∃ k, exkeyDecode host (code ++ post) kbuf = .ok k ∧ BufPriv k ∧ privBytes k = code.set 41 0#8) ∧
    (∃ pk, expubkeyDecode host (code ++ post) pbuf = .ok pk ∧ BufPub pk ∧ pubBytes pk = code) := by
  have hlp : 74 ≤ (code ++ post).length := by rw [List.length_append]; omega
  have hx : extBytes (extOf (code ++ post)) = code.take 41 := by
    rw [extBytes_extOf _ (by omega), List.take_append_of_le_length (by omega)]
  have hch : (extOf (code ++ post)).chainCode.length = 32 := by
    show (((code ++ post).drop 9).take 32).length = 32
    rw [List.length_take, List.length_drop]; omega
  have hk32 : ((code ++ post).drop 42).take 32 = code.drop 42 := by
    rw [List.drop_append_of_le_length (by omega), List.take_left' (by rw [List.length_drop]; omega)]
  have hk33 : ((code ++ post).drop 41).take 33 = code.drop 41 := by
    rw [List.drop_append_of_le_length (by omega), List.take_left' (by rw [List.length_drop]; omega)]
  constructor
  · have hb : BufPriv ⟨extOf (code ++ post), code.drop 42⟩ := ⟨by rw [List.length_drop]; omega, hch⟩
    refine ⟨⟨extOf (code ++ post), code.drop 42⟩, ?_, hb, ?_⟩
    · rw [exkeyDecode_eq host _ _ hlp hkb.2 hkb.1, hk32]
    · rw [privBytes_eq _ hb, hx, List.take_of_length_le (l := code.drop 42) (by rw [List.length_drop]; omega), List.set_eq_take_append_cons_drop, if_pos (by omega)]
      simp
  · have hb : BufPub ⟨extOf (code ++ post), code.drop 41⟩ := ⟨by rw [List.length_drop]; omega, hch⟩
    refine ⟨⟨extOf (code ++ post), code.drop 41⟩, ?_, hb, ?_⟩
    · rw [expubkeyDecode_eq host _ _ hlp hpb.2 hpb.1, hk33]
    · rw [pubBytes_eq _ hb, hx, List.take_of_length_le (l := code.drop 41) (by rw [List.length_drop]; omega)]
      exact List.take_append_drop 41 code

/-! ## Text -/

/-- The texts `xprv…`, `xpub…` (or `tprv…`, `tpub…`) of extended keys. -/
def xprv (net : Network) (k : ExKey) : List Byte := Base58CheckSpec.encode (net.extSecret ++ privBytes k)
def xpub (net : Network) (k : ExPubkey) : List Byte := Base58CheckSpec.encode (net.extPublic ++ pubBytes k)

theorem net_ext (net : Network) : net.param.prefixExtSecretKeySize = 4 ∧ net.param.prefixExtPublicKeySize = 4 ∧
    4 ≤ net.param.prefixExtSecretKey.length ∧ 4 ≤ net.param.prefixExtPublicKey.length ∧
    net.param.prefixExtSecretKey.take 4 = net.extSecret ∧ net.param.prefixExtPublicKey.take 4 = net.extPublic ∧
    net.extSecret.length = 4 ∧ net.extPublic.length = 4 := by
  cases net <;> decide

theorem ext_length_le (v p : List Byte) (hv : v.length = 4) (hp : p.length = 74) :
    (Base58CheckSpec.encode (v ++ p)).length ≤ toBase58CheckLength 74 8 := by
  have := encodeCheck_length_le (v ++ p)
  rw [List.length_append, hv, hp] at this
  have e : toBase58CheckLength 74 8 = Base58.toBase58Length 86 := rfl
  rw [e]
  unfold Base58.toBase58Length at *
  omega

/-- C54 (what is written). Into a buffer of `fingera_exkey_string_max_length()` bytes, `fingera_exkey_to_string` and
`fingera_expubkey_to_string` write the Base58Check text of version and 74 bytes, and return its length. -/
theorem C54_to_string (host : Host) (net : Network) (k : ExKey) (pk : ExPubkey) (str : List Byte) (hk : BufPriv k)
    (hpk : BufPub pk) (hs : toBase58CheckLength 74 8 ≤ str.length) :
    exkeyToString host k str net.param = .ok (over (xprv net k) str, (xprv net k).length) ∧
    expubkeyToString host pk str net.param = .ok (over (xpub net pk) str, (xpub net pk).length) := by
  obtain ⟨n1, n2, n3, n4, n5, n6, n7, n8⟩ := net_ext net
  obtain ⟨e1, e2⟩ := C53_encode_layout host k pk (List.replicate 74 0xAA#8) hk hpk (by simp)
  have l1 := privBytes_length k hk
  have l2 := pubBytes_length pk hpk
  constructor
  · rw [exkeyToString, e1, Res.ok_bind, Exkey.over_all (by rw [l1]; simp), n1, xprv]
    have hl := ext_length_le net.extSecret (privBytes k) n7 l1
    have h := toBase58Check_eq host (privBytes k) 74 net.param.prefixExtSecretKey 4 str (by omega) n3 (by omega) (by
      rw [n5, List.take_of_length_le (by omega)]; omega)
    rw [n5, List.take_of_length_le (l := privBytes k) (by omega)] at h
    exact h
  · rw [expubkeyToString, e2, Res.ok_bind, Exkey.over_all (by rw [l2]; simp), n2, xpub]
    have hl := ext_length_le net.extPublic (pubBytes pk) n8 l2
    have h := toBase58Check_eq host (pubBytes pk) 74 net.param.prefixExtPublicKey 4 str (by omega) n4 (by omega) (by
      rw [n6, List.take_of_length_le (by omega)]; omega)
    rw [n6, List.take_of_length_le (l := pubBytes pk) (by omega)] at h
    exact h

theorem privBytes_set (k : ExKey) (hk : BufPriv k) : (privBytes k).set 41 0#8 = privBytes k := by
  have hx := extBytes_length k.ext (by rw [hk.2])
  rw [privBytes_eq k hk, List.append_assoc, List.set_append_right _ _ (by omega), hx]
  rfl

/-- C54 (exact behaviour, private keys). Let `s` be any string without NUL (readable, see `Base58Spec.Readable`) that stands for at most 82
bytes.  It is accepted iff it is Base58Check text of 78 bytes starting with the version of the network, and then the
74 bytes after the version are decoded; otherwise nothing is written. -/
theorem C54_exkey_from_string_spec_partial (nd : Bool) (host : Host) (cs : Bool) (net : Network) (s post : List Byte) (buf : ExKey)
    (h0 : ∀ b ∈ s, b ≠ 0#8) (hr : Base58Spec.Readable cs s)
    (hb : BufPriv buf) (h82 : ∀ W, Base58Spec.decode? s = some W → W.length ≤ 82) :
    (∀ p, Base58CheckSpec.decode? s = some (net.extSecret ++ p) → p.length = 74 →
      ∃ k, exkeyFromString nd host cs (s ++ 0#8 :: post) s.length buf net.param = .ok (k, true) ∧ BufPriv k ∧
        privBytes k = p.set 41 0#8) ∧
    ((¬ ∃ p, Base58CheckSpec.decode? s = some (net.extSecret ++ p) ∧ p.length = 74) →
      exkeyFromString nd host cs (s ++ 0#8 :: post) s.length buf net.param = .ok (buf, false)) := by
  obtain ⟨n1, n2, n3, n4, n5, n6, n7, n8⟩ := net_ext net
  have hass : assertNd nd (decide (net.param.prefixExtSecretKeySize ≤ 8)) = .ok () := by
    rw [n1]; cases nd <;> rfl
  have hfb := fromBase58Check_readable host cs s post (List.replicate 82 0xAA#8) h0 hr (by simpa using h82)
  rw [exkeyFromString]
  simp only []
  rw [hass]
  simp only [Res.ok_bind]
  cases hd : Base58Spec.decode? s with
  | none =>
    rw [hd] at hfb
    have : Base58CheckSpec.decode? s = none := by rw [Base58CheckSpec.decode?, hd]; rfl
    rw [this, hfb]
    refine ⟨fun p hp => (by cases hp), fun _ => ?_⟩
    cases nd <;> rfl
  | some W =>
    rw [hd] at hfb
    simp only at hfb
    have h82' := h82 W hd
    have hdc : Base58CheckSpec.decode? s = Base58CheckSpec.check? W := by rw [Base58CheckSpec.decode?, hd]; rfl
    rw [hdc]
    cases hc : Base58CheckSpec.check? W with
    | none =>
      rw [hc] at hfb
      rw [hfb]
      refine ⟨fun p hp => (by cases hp), fun _ => ?_⟩
      cases nd <;> rfl
    | some q =>
      rw [hc] at hfb
      simp only at hfb
      have hWe := check?_some hc
      have hWl : W.length = q.length + 4 := by rw [hWe, List.length_append, checksum_length]
      have hass2 : assertNd nd (decide (q.length ≤ 82)) = .ok () := by
        rw [decide_eq_true (by omega), assertNd_true]
      rw [hfb]
      simp only [Res.ok_bind, hass2, n1]
      rw [over, hWe, List.append_assoc]
      by_cases h78 : q.length = 78
      · rw [if_neg (show ¬ (q.length ≤ 74 ∨ q.length > 82) by omega), if_neg (show ¬ q.length - 74 ≠ 4 by omega), h78,
          show 78 - 74 = 4 from rfl, memeq, if_pos ⟨by rw [List.length_append]; omega, n3⟩, n5, Res.ok_bind,
          List.take_append_of_le_length (by omega)]
        constructor
        · intro p hp hpl
          rw [Option.some.injEq] at hp
          subst hp
          rw [List.take_left' n7, beq_self_eq_true, if_neg (by simp), List.append_assoc, List.drop_left' n7]
          obtain ⟨k, k1, k2, k3⟩ := (C53_decode_faithful host p (Base58CheckSpec.checksum (net.extSecret ++ p) ++
            List.drop (net.extSecret ++ p ++ Base58CheckSpec.checksum (net.extSecret ++ p)).length (List.replicate 82 0xAA#8)) buf
            ⟨⟨0#8, 0#32, 0#32, List.replicate 32 0#8⟩, List.replicate 33 0#8⟩ hb ⟨by simp, by simp⟩ hpl).1
          rw [k1]
          exact ⟨k, rfl, k2, k3⟩
        · intro hno
          have hne : q.take 4 ≠ net.extSecret := fun he => hno ⟨q.drop 4, by rw [← he, List.take_append_drop], by
            rw [List.length_drop]; omega⟩
          rw [beq_eq_false_iff_ne.2 hne]
          rfl
      · constructor
        · intro p hp hpl
          rw [Option.some.injEq] at hp
          rw [hp, List.length_append, n7] at h78
          omega
        · intro _
          by_cases h74 : q.length ≤ 74 ∨ q.length > 82
          · rw [if_pos h74]; rfl
          · rw [if_neg h74, if_pos (show q.length - 74 ≠ 4 by omega)]; rfl

/-- C54 is violated by the code: texts that are not readable (too long for `int`, or, where `char` is signed, scanned up to a
negative character), and texts that stand for more than 82 bytes, make `fingera_exkey_from_string` undefined … -/
theorem C54_exkey_violated_undefined (nd : Bool) (host : Host) (cs : Bool) (net : Network) (s post : List Byte) (buf : ExKey)
    (h0 : ∀ b ∈ s, b ≠ 0#8) (h : ¬ (Base58Spec.Readable cs s ∧ ∀ W, Base58Spec.decode? s = some W → W.length ≤ 82)) :
    exkeyFromString nd host cs (s ++ 0#8 :: post) s.length buf net.param = .ub := by
  obtain ⟨n1, n2, n3, n4, n5, n6, n7, n8⟩ := net_ext net
  have hass : assertNd nd (decide (net.param.prefixExtSecretKeySize ≤ 8)) = .ok () := by
    rw [n1]; cases nd <;> rfl
  rw [exkeyFromString]
  simp only []
  rw [hass]
  simp only [Res.ok_bind]
  rw [(fromBase58Check_ub_iff host cs s post (List.replicate 82 0xAA#8) h0).mpr (by simpa using h)]
  rfl

/-- … and no others do. -/
theorem C54_exkey_undefined_iff_partial (nd : Bool) (host : Host) (cs : Bool) (net : Network) (s post : List Byte) (buf : ExKey)
    (h0 : ∀ b ∈ s, b ≠ 0#8) (hb : BufPriv buf) :
    exkeyFromString nd host cs (s ++ 0#8 :: post) s.length buf net.param = .ub ↔
      ¬ (Base58Spec.Readable cs s ∧ ∀ W, Base58Spec.decode? s = some W → W.length ≤ 82) := by
  refine ⟨?_, C54_exkey_violated_undefined nd host cs net s post buf h0⟩
  rintro h ⟨hr, h82⟩
  obtain ⟨a, b⟩ := C54_exkey_from_string_spec_partial nd host cs net s post buf h0 hr hb h82
  by_cases hp : ∃ p, Base58CheckSpec.decode? s = some (net.extSecret ++ p) ∧ p.length = 74
  · obtain ⟨p, hp1, hp2⟩ := hp
    obtain ⟨k', k1, -⟩ := a p hp1 hp2
    rw [k1] at h; cases h
  · rw [b hp] at h; cases h

/-- C54 is violated by the code: a string that stands for more than 82 bytes always makes `fingera_exkey_from_string` write beyond
its 82-byte array, before any check. -/
theorem C54_exkey_violated_overrun (nd : Bool) (host : Host) (cs : Bool) (net : Network) (s post W : List Byte) (buf : ExKey)
    (h0 : ∀ b ∈ s, b ≠ 0#8) (hd : Base58Spec.decode? s = some W) (h82 : 82 < W.length) :
    exkeyFromString nd host cs (s ++ 0#8 :: post) s.length buf net.param = .ub :=
  C54_exkey_violated_undefined nd host cs net s post buf h0 fun h => Nat.not_le_of_lt h82 (h.2 W hd)

/-- C54 (soundness, private keys). Whenever the function returns non-zero, the string, blanks at its ends apart, is the Base58Check
text of the network's version and the 74 bytes of the key that is delivered, except that the byte before the key (which ought to be 0) may be anything. -/
theorem C54_exkey_from_string_sound (nd : Bool) (host : Host) (cs : Bool) (net : Network) (s post : List Byte) (buf k : ExKey)
    (h0 : ∀ b ∈ s, b ≠ 0#8) (hb : BufPriv buf)
    (h : exkeyFromString nd host cs (s ++ 0#8 :: post) s.length buf net.param = .ok (k, true)) :
    BufPriv k ∧ ∃ p, trim58 s = Base58CheckSpec.encode (net.extSecret ++ p) ∧ p.length = 74 ∧ privBytes k = p.set 41 0#8 := by
  have hr : Base58Spec.Readable cs s ∧ ∀ W, Base58Spec.decode? s = some W → W.length ≤ 82 := by
    by_contra hc
    rw [C54_exkey_violated_undefined nd host cs net s post buf h0 hc] at h
    cases h
  obtain ⟨a, b⟩ := C54_exkey_from_string_spec_partial nd host cs net s post buf h0 hr.1 hb hr.2
  by_cases hp : ∃ p, Base58CheckSpec.decode? s = some (net.extSecret ++ p) ∧ p.length = 74
  · obtain ⟨p, hp1, hp2⟩ := hp
    obtain ⟨k', k1, k2, k3⟩ := a p hp1 hp2
    rw [k1] at h
    rw [Res.ok.injEq, Prod.mk.injEq] at h
    rw [← h.1]
    have htrim : trim58 s = Base58CheckSpec.encode (net.extSecret ++ p) := by
      rw [Base58CheckSpec.decode?] at hp1
      cases hW : Base58Spec.decode? s with
      | none => rw [hW] at hp1; cases hp1
      | some W =>
        rw [hW, Option.bind_some] at hp1
        have hWe := check?_some hp1
        subst hWe
        exact (C16_reencode s _ hW).symm
    exact ⟨k2, p, htrim, hp2, k3⟩
  · rw [b hp] at h
    rw [Res.ok.injEq, Prod.mk.injEq] at h
    cases h.2

theorem exkey_from_string_text (nd : Bool) (host : Host) (cs : Bool) (net net' : Network) (k buf : ExKey) (post : List Byte)
    (hk : BufPriv k) (hb : BufPriv buf) :
    (net.extSecret = net'.extSecret → exkeyFromString nd host cs (xprv net k ++ 0#8 :: post) (xprv net k).length buf net'.param = .ok (k, true)) ∧
    (net.extSecret ≠ net'.extSecret →
      exkeyFromString nd host cs (xprv net k ++ 0#8 :: post) (xprv net k).length buf net'.param = .ok (buf, false)) := by
  obtain ⟨n1, n2, n3, n4, n5, n6, n7, n8⟩ := net_ext net
  obtain ⟨m1, m2, m3, m4, m5, m6, m7, m8⟩ := net_ext net'
  have hl := privBytes_length k hk
  have hle := ext_length_le net.extSecret (privBytes k) n7 hl
  have hd : Base58Spec.decode? (xprv net k) = some (net.extSecret ++ privBytes k ++ Base58CheckSpec.checksum (net.extSecret ++ privBytes k)) :=
    decode_encode58 _
  have hdc : Base58CheckSpec.decode? (xprv net k) = some (net.extSecret ++ privBytes k) := by
    rw [Base58CheckSpec.decode?, hd, Option.bind_some, check?_append]
  obtain ⟨a, b⟩ := C54_exkey_from_string_spec_partial nd host cs net' (xprv net k) post buf
    (fun b hb => (encode58_chars _ b hb).2.1) (readable_of _ _ (fun _ b hb => (encode58_chars _ b hb).2.2.1)
    (by have : toBase58CheckLength 74 8 ≤ 2929669 := by decide
        exact Nat.le_trans hle this)) hb (by
      intro W hW
      rw [hd, Option.some.injEq] at hW
      rw [← hW, List.length_append, checksum_length, List.length_append, n7, hl])
  constructor
  · intro he
    obtain ⟨k', k1, k2, k3⟩ := a (privBytes k) (by rw [hdc, he]) hl
    rw [k1]
    have : k' = k := by
      have e1 := priv_decode host k' k' [] k2 k2
      have e2 := priv_decode host k k' [] hk k2
      rw [k3, privBytes_set k hk, e2, Res.ok.injEq] at e1
      exact e1.symm
    rw [this]
  · intro he
    refine b ?_
    rintro ⟨p, hp, -⟩
    rw [hdc, Option.some.injEq] at hp
    exact he (List.append_inj_left hp (by rw [n7, m7]))

/-- C54 (exact behaviour, public keys). Let `s` be any string without NUL (readable, see `Base58Spec.Readable`) that stands for at most 82
bytes.  It is accepted iff it is Base58Check text of 78 bytes starting with the version of the network, and then the
74 bytes after the version are decoded; otherwise nothing is written. -/
theorem C54_expubkey_from_string_spec_partial (nd : Bool) (host : Host) (cs : Bool) (net : Network) (s post : List Byte) (buf : ExPubkey)
    (h0 : ∀ b ∈ s, b ≠ 0#8) (hr : Base58Spec.Readable cs s)
    (hb : BufPub buf) (h82 : ∀ W, Base58Spec.decode? s = some W → W.length ≤ 82) :
    (∀ p, Base58CheckSpec.decode? s = some (net.extPublic ++ p) → p.length = 74 →
      ∃ k, expubkeyFromString nd host cs (s ++ 0#8 :: post) s.length buf net.param = .ok (k, true) ∧ BufPub k ∧
        pubBytes k = p) ∧
    ((¬ ∃ p, Base58CheckSpec.decode? s = some (net.extPublic ++ p) ∧ p.length = 74) →
      expubkeyFromString nd host cs (s ++ 0#8 :: post) s.length buf net.param = .ok (buf, false)) := by
  obtain ⟨n1, n2, n3, n4, n5, n6, n7, n8⟩ := net_ext net
  have hass : assertNd nd (decide (net.param.prefixExtPublicKeySize ≤ 8)) = .ok () := by
    rw [n2]; cases nd <;> rfl
  have hfb := fromBase58Check_readable host cs s post (List.replicate 82 0xAA#8) h0 hr (by simpa using h82)
  rw [expubkeyFromString]
  simp only []
  rw [hass]
  simp only [Res.ok_bind]
  cases hd : Base58Spec.decode? s with
  | none =>
    rw [hd] at hfb
    have : Base58CheckSpec.decode? s = none := by rw [Base58CheckSpec.decode?, hd]; rfl
    rw [this, hfb]
    refine ⟨fun p hp => (by cases hp), fun _ => ?_⟩
    cases nd <;> rfl
  | some W =>
    rw [hd] at hfb
    simp only at hfb
    have h82' := h82 W hd
    have hdc : Base58CheckSpec.decode? s = Base58CheckSpec.check? W := by rw [Base58CheckSpec.decode?, hd]; rfl
    rw [hdc]
    cases hc : Base58CheckSpec.check? W with
    | none =>
      rw [hc] at hfb
      rw [hfb]
      refine ⟨fun p hp => (by cases hp), fun _ => ?_⟩
      cases nd <;> rfl
    | some q =>
      rw [hc] at hfb
      simp only at hfb
      have hWe := check?_some hc
      have hWl : W.length = q.length + 4 := by rw [hWe, List.length_append, checksum_length]
      have hass2 : assertNd nd (decide (q.length ≤ 82)) = .ok () := by
        rw [decide_eq_true (by omega), assertNd_true]
      rw [hfb]
      simp only [Res.ok_bind, hass2, n2]
      rw [over, hWe, List.append_assoc]
      by_cases h78 : q.length = 78
      · rw [if_neg (show ¬ (q.length ≤ 74 ∨ q.length > 82) by omega), if_neg (show ¬ q.length - 74 ≠ 4 by omega), h78,
          show 78 - 74 = 4 from rfl, memeq, if_pos ⟨by rw [List.length_append]; omega, n4⟩, n6, Res.ok_bind,
          List.take_append_of_le_length (by omega)]
        constructor
        · intro p hp hpl
          rw [Option.some.injEq] at hp
          subst hp
          rw [List.take_left' n8, beq_self_eq_true, if_neg (by simp), List.append_assoc, List.drop_left' n8]
          obtain ⟨k, k1, k2, k3⟩ := (C53_decode_faithful host p (Base58CheckSpec.checksum (net.extPublic ++ p) ++
            List.drop (net.extPublic ++ p ++ Base58CheckSpec.checksum (net.extPublic ++ p)).length (List.replicate 82 0xAA#8))
            ⟨⟨0#8, 0#32, 0#32, List.replicate 32 0#8⟩, List.replicate 32 0#8⟩ buf ⟨by simp, by simp⟩ hb hpl).2
          rw [k1]
          exact ⟨k, rfl, k2, k3⟩
        · intro hno
          have hne : q.take 4 ≠ net.extPublic := fun he => hno ⟨q.drop 4, by rw [← he, List.take_append_drop], by
            rw [List.length_drop]; omega⟩
          rw [beq_eq_false_iff_ne.2 hne]
          rfl
      · constructor
        · intro p hp hpl
          rw [Option.some.injEq] at hp
          rw [hp, List.length_append, n8] at h78
          omega
        · intro _
          by_cases h74 : q.length ≤ 74 ∨ q.length > 82
          · rw [if_pos h74]; rfl
          · rw [if_neg h74, if_pos (show q.length - 74 ≠ 4 by omega)]; rfl

/-- C54 is violated by the code: texts that are not readable (too long for `int`, or, where `char` is signed, scanned up to a
negative character), and texts that stand for more than 82 bytes, make `fingera_expubkey_from_string` undefined … -/
theorem C54_expubkey_violated_undefined (nd : Bool) (host : Host) (cs : Bool) (net : Network) (s post : List Byte) (buf : ExPubkey)
    (h0 : ∀ b ∈ s, b ≠ 0#8) (h : ¬ (Base58Spec.Readable cs s ∧ ∀ W, Base58Spec.decode? s = some W → W.length ≤ 82)) :
    expubkeyFromString nd host cs (s ++ 0#8 :: post) s.length buf net.param = .ub := by
  obtain ⟨n1, n2, n3, n4, n5, n6, n7, n8⟩ := net_ext net
  have hass : assertNd nd (decide (net.param.prefixExtPublicKeySize ≤ 8)) = .ok () := by
    rw [n2]; cases nd <;> rfl
  rw [expubkeyFromString]
  simp only []
  rw [hass]
  simp only [Res.ok_bind]
  rw [(fromBase58Check_ub_iff host cs s post (List.replicate 82 0xAA#8) h0).mpr (by simpa using h)]
  rfl

/-- … and no others do. -/
theorem C54_expubkey_undefined_iff_partial (nd : Bool) (host : Host) (cs : Bool) (net : Network) (s post : List Byte) (buf : ExPubkey)
    (h0 : ∀ b ∈ s, b ≠ 0#8) (hb : BufPub buf) :
    expubkeyFromString nd host cs (s ++ 0#8 :: post) s.length buf net.param = .ub ↔
      ¬ (Base58Spec.Readable cs s ∧ ∀ W, Base58Spec.decode? s = some W → W.length ≤ 82) := by
  refine ⟨?_, C54_expubkey_violated_undefined nd host cs net s post buf h0⟩
  rintro h ⟨hr, h82⟩
  obtain ⟨a, b⟩ := C54_expubkey_from_string_spec_partial nd host cs net s post buf h0 hr hb h82
  by_cases hp : ∃ p, Base58CheckSpec.decode? s = some (net.extPublic ++ p) ∧ p.length = 74
  · obtain ⟨p, hp1, hp2⟩ := hp
    obtain ⟨k', k1, -⟩ := a p hp1 hp2
    rw [k1] at h; cases h
  · rw [b hp] at h; cases h

/-- C54 is violated by the code: a string that stands for more than 82 bytes always makes `fingera_expubkey_from_string` write beyond
its 82-byte array, before any check. -/
theorem C54_expubkey_violated_overrun (nd : Bool) (host : Host) (cs : Bool) (net : Network) (s post W : List Byte) (buf : ExPubkey)
    (h0 : ∀ b ∈ s, b ≠ 0#8) (hd : Base58Spec.decode? s = some W) (h82 : 82 < W.length) :
    expubkeyFromString nd host cs (s ++ 0#8 :: post) s.length buf net.param = .ub :=
  C54_expubkey_violated_undefined nd host cs net s post buf h0 fun h => Nat.not_le_of_lt h82 (h.2 W hd)

/-- C54 (soundness, public keys). Whenever the function returns non-zero, the string, blanks at its ends apart, is the Base58Check
text of the network's version and the 74 bytes of the key that is delivered. -/
theorem C54_expubkey_from_string_sound (nd : Bool) (host : Host) (cs : Bool) (net : Network) (s post : List Byte) (buf k : ExPubkey)
    (h0 : ∀ b ∈ s, b ≠ 0#8) (hb : BufPub buf)
    (h : expubkeyFromString nd host cs (s ++ 0#8 :: post) s.length buf net.param = .ok (k, true)) :
    BufPub k ∧ trim58 s = xpub net k := by
  have hr : Base58Spec.Readable cs s ∧ ∀ W, Base58Spec.decode? s = some W → W.length ≤ 82 := by
    by_contra hc
    rw [C54_expubkey_violated_undefined nd host cs net s post buf h0 hc] at h
    cases h
  obtain ⟨a, b⟩ := C54_expubkey_from_string_spec_partial nd host cs net s post buf h0 hr.1 hb hr.2
  by_cases hp : ∃ p, Base58CheckSpec.decode? s = some (net.extPublic ++ p) ∧ p.length = 74
  · obtain ⟨p, hp1, hp2⟩ := hp
    obtain ⟨k', k1, k2, k3⟩ := a p hp1 hp2
    rw [k1] at h
    rw [Res.ok.injEq, Prod.mk.injEq] at h
    rw [← h.1]
    have htrim : trim58 s = Base58CheckSpec.encode (net.extPublic ++ p) := by
      rw [Base58CheckSpec.decode?] at hp1
      cases hW : Base58Spec.decode? s with
      | none => rw [hW] at hp1; cases hp1
      | some W =>
        rw [hW, Option.bind_some] at hp1
        have hWe := check?_some hp1
        subst hWe
        exact (C16_reencode s _ hW).symm
    exact ⟨k2, by rw [xpub, k3, htrim]⟩
  · rw [b hp] at h
    rw [Res.ok.injEq, Prod.mk.injEq] at h
    cases h.2

theorem expubkey_from_string_text (nd : Bool) (host : Host) (cs : Bool) (net net' : Network) (k buf : ExPubkey) (post : List Byte)
    (hk : BufPub k) (hb : BufPub buf) :
    (net.extPublic = net'.extPublic → expubkeyFromString nd host cs (xpub net k ++ 0#8 :: post) (xpub net k).length buf net'.param = .ok (k, true)) ∧
    (net.extPublic ≠ net'.extPublic →
      expubkeyFromString nd host cs (xpub net k ++ 0#8 :: post) (xpub net k).length buf net'.param = .ok (buf, false)) := by
  obtain ⟨n1, n2, n3, n4, n5, n6, n7, n8⟩ := net_ext net
  obtain ⟨m1, m2, m3, m4, m5, m6, m7, m8⟩ := net_ext net'
  have hl := pubBytes_length k hk
  have hle := ext_length_le net.extPublic (pubBytes k) n8 hl
  have hd : Base58Spec.decode? (xpub net k) = some (net.extPublic ++ pubBytes k ++ Base58CheckSpec.checksum (net.extPublic ++ pubBytes k)) :=
    decode_encode58 _
  have hdc : Base58CheckSpec.decode? (xpub net k) = some (net.extPublic ++ pubBytes k) := by
    rw [Base58CheckSpec.decode?, hd, Option.bind_some, check?_append]
  obtain ⟨a, b⟩ := C54_expubkey_from_string_spec_partial nd host cs net' (xpub net k) post buf
    (fun b hb => (encode58_chars _ b hb).2.1) (readable_of _ _ (fun _ b hb => (encode58_chars _ b hb).2.2.1)
    (by have : toBase58CheckLength 74 8 ≤ 2929669 := by decide
        exact Nat.le_trans hle this)) hb (by
      intro W hW
      rw [hd, Option.some.injEq] at hW
      rw [← hW, List.length_append, checksum_length, List.length_append, n8, hl])
  constructor
  · intro he
    obtain ⟨k', k1, k2, k3⟩ := a (pubBytes k) (by rw [hdc, he]) hl
    rw [k1]
    have : k' = k := by
      have e1 := pub_decode host k' k' [] k2 k2
      have e2 := pub_decode host k k' [] hk k2
      rw [k3, e2, Res.ok.injEq] at e1
      exact e1.symm
    rw [this]
  · intro he
    refine b ?_
    rintro ⟨p, hp, -⟩
    rw [hdc, Option.some.injEq] at hp
    exact he (List.append_inj_left hp (by rw [n8, m8]))

/-- C54 (round trip). What `fingera_exkey_to_string` and `fingera_expubkey_to_string` write is read back as the same structure, on every
network. -/
theorem C54_roundtrip (nd : Bool) (host host' : Host) (cs : Bool) (net : Network) (k kbuf : ExKey) (pk pbuf : ExPubkey)
    (str post : List Byte) (hk : BufPriv k) (hkb : BufPriv kbuf) (hpk : BufPub pk) (hpb : BufPub pbuf)
    (hs : toBase58CheckLength 74 8 ≤ str.length) :
    (∃ s n, exkeyToString host k str net.param = .ok (s, n) ∧ n ≤ toBase58CheckLength 74 8 ∧
      exkeyFromString nd host' cs (s.take n ++ 0#8 :: post) n kbuf net.param = .ok (k, true)) ∧
    (∃ s n, expubkeyToString host pk str net.param = .ok (s, n) ∧ n ≤ toBase58CheckLength 74 8 ∧
      expubkeyFromString nd host' cs (s.take n ++ 0#8 :: post) n pbuf net.param = .ok (pk, true)) := by
  obtain ⟨h1, h2⟩ := C54_to_string host net k pk str hk hpk hs
  obtain ⟨n1, n2, n3, n4, n5, n6, n7, n8⟩ := net_ext net
  refine ⟨⟨_, _, h1, ext_length_le _ _ n7 (privBytes_length k hk), ?_⟩, ⟨_, _, h2, ext_length_le _ _ n8 (pubBytes_length pk hpk), ?_⟩⟩
  · rw [BtcHash.take_over rfl]; exact (exkey_from_string_text nd host' cs net net k kbuf post hk hkb).1 rfl
  · rw [BtcHash.take_over rfl]; exact (expubkey_from_string_text nd host' cs net net pk pbuf post hpk hpb).1 rfl

/-- C42 (extended keys). A text written for one network is refused for every network with other version bytes: mainnet against
test and regtest. -/
theorem C42_ext_networks (nd : Bool) (host : Host) (cs : Bool) (net net' : Network) (k kbuf : ExKey) (pk pbuf : ExPubkey)
    (post : List Byte) (hk : BufPriv k) (hkb : BufPriv kbuf) (hpk : BufPub pk) (hpb : BufPub pbuf)
    (hn : (net = .main) ≠ (net' = .main)) :
    exkeyFromString nd host cs (xprv net k ++ 0#8 :: post) (xprv net k).length kbuf net'.param = .ok (kbuf, false) ∧
    expubkeyFromString nd host cs (xpub net pk ++ 0#8 :: post) (xpub net pk).length pbuf net'.param = .ok (pbuf, false) := by
  refine ⟨(exkey_from_string_text nd host cs net net' k kbuf post hk hkb).2 ?_,
    (expubkey_from_string_text nd host cs net net' pk pbuf post hpk hpb).2 ?_⟩
  all_goals revert hn; cases net <;> cases net' <;> simp [Network.extSecret, Network.extPublic]

/-! ## C63: validity of what is accepted -/

/-- C63 does not hold for private keys: on every network there is a text that is accepted although the key it carries (0) is not a
valid secret key. -/
theorem C63_violated_invalid_secret (nd : Bool) (host : Host) (cs : Bool) (net : Network) (buf : ExKey) (hb : BufPriv buf) :
    ∃ (s : List Byte) (k : ExKey), exkeyFromString nd host cs (s ++ [0#8]) s.length buf net.param = .ok (k, true) ∧ ¬ ValidKey k.key := by
  refine ⟨xprv net ⟨⟨0#8, 0#32, 0#32, List.replicate 32 0#8⟩, List.replicate 32 0#8⟩, _,
    (exkey_from_string_text nd host cs net net ⟨⟨0#8, 0#32, 0#32, List.replicate 32 0#8⟩, List.replicate 32 0#8⟩ buf [] ⟨by simp, by simp⟩ hb).1 rfl, ?_⟩
  decide +kernel

/-- C63 does not hold for public keys: on every network there is a text that is accepted although its key (33 zero bytes) is not
the encoding of a public key. -/
theorem C63_violated_invalid_public (nd : Bool) (host : Host) (cs : Bool) (net : Network) (buf : ExPubkey) (hb : BufPub buf) :
    ∃ (s : List Byte) (k : ExPubkey), expubkeyFromString nd host cs (s ++ [0#8]) s.length buf net.param = .ok (k, true) ∧
      pubkeyDecode true k.pubkey 33 = .ok (none, false) := by
  refine ⟨xpub net ⟨⟨0#8, 0#32, 0#32, List.replicate 32 0#8⟩, List.replicate 33 0#8⟩, _,
    (expubkey_from_string_text nd host cs net net ⟨⟨0#8, 0#32, 0#32, List.replicate 32 0#8⟩, List.replicate 33 0#8⟩ buf [] ⟨by simp, by simp⟩ hb).1 rfl, ?_⟩
  decide +kernel

/-- C63 does not hold for the byte before a private key: for every key there is a second text, with that byte 1, that is accepted as
the same key; BIP 32 requires 0. -/
theorem C63_violated_pad_byte (nd : Bool) (host : Host) (cs : Bool) (net : Network) (k buf : ExKey) (hk : BufPriv k) (hb : BufPriv buf) :
    ∃ s : List Byte, s ≠ xprv net k ∧ exkeyFromString nd host cs (s ++ [0#8]) s.length buf net.param = .ok (k, true) := by
  obtain ⟨n1, n2, n3, n4, n5, n6, n7, n8⟩ := net_ext net
  have hl : ((privBytes k).set 41 1#8).length = 74 := by rw [List.length_set, privBytes_length k hk]
  have hle := ext_length_le net.extSecret _ n7 hl
  have hx := extBytes_length k.ext (by rw [hk.2])
  have hd : Base58Spec.decode? (Base58CheckSpec.encode (net.extSecret ++ (privBytes k).set 41 1#8)) =
      some (net.extSecret ++ (privBytes k).set 41 1#8 ++ Base58CheckSpec.checksum (net.extSecret ++ (privBytes k).set 41 1#8)) :=
    decode_encode58 _
  have hdc : Base58CheckSpec.decode? (Base58CheckSpec.encode (net.extSecret ++ (privBytes k).set 41 1#8)) =
      some (net.extSecret ++ (privBytes k).set 41 1#8) := by
    rw [Base58CheckSpec.decode?, hd, Option.bind_some, check?_append]
  have hdc2 : Base58CheckSpec.decode? (xprv net k) = some (net.extSecret ++ privBytes k) := by
    have hd2 : Base58Spec.decode? (xprv net k) = some (net.extSecret ++ privBytes k ++ Base58CheckSpec.checksum (net.extSecret ++ privBytes k)) :=
      decode_encode58 _
    rw [Base58CheckSpec.decode?, hd2, Option.bind_some, check?_append]
  refine ⟨Base58CheckSpec.encode (net.extSecret ++ (privBytes k).set 41 1#8), ?_, ?_⟩
  · intro he
    rw [he, hdc2, Option.some.injEq] at hdc
    have h := congrArg (·[41]?) (List.append_cancel_left hdc)
    rw [List.getElem?_set_self (by rw [privBytes_length k hk]; omega), privBytes_eq k hk, List.append_assoc,
      List.getElem?_append_right (by omega), hx] at h
    simp at h
  · obtain ⟨a, -⟩ := C54_exkey_from_string_spec_partial nd host cs net (Base58CheckSpec.encode (net.extSecret ++ (privBytes k).set 41 1#8)) [] buf
      (fun b hb => (encode58_chars _ b hb).2.1) (readable_of _ _ (fun _ b hb => (encode58_chars _ b hb).2.2.1)
      (by have : toBase58CheckLength 74 8 ≤ 2929669 := by decide
          exact Nat.le_trans hle this)) hb (by
        intro W hW
        rw [hd, Option.some.injEq] at hW
        rw [← hW, List.length_append, checksum_length, List.length_append, n7, hl])
    obtain ⟨k', k1, k2, k3⟩ := a _ hdc hl
    rw [k1]
    rw [List.set_set, privBytes_set k hk] at k3
    have e1 := priv_decode host k' k' [] k2 k2
    have e2 := priv_decode host k k' [] hk k2
    rw [k3, e2, Res.ok.injEq] at e1
    rw [e1]

/-- What is left of C63: a text written for a valid key is accepted as that valid key; and an accepted public key that is not
the encoding of a point cannot be derived from.  Missing: refusing the texts of the three theorems above. -/
theorem C63_valid_partial (nd : Bool) (host : Host) (cs : Bool) (net : Network) (k kbuf : ExKey) (hk : WfPriv k) (hb : BufPriv kbuf) :
    exkeyFromString nd host cs (xprv net k ++ [0#8]) (xprv net k).length kbuf net.param = .ok (k, true) :=
  (exkey_from_string_text nd host cs net net k kbuf [] ⟨hk.1.1, hk.2⟩ hb).1 rfl

/-! ## Concrete cases: test vector 1 of BIP 32 -/

/-- Text of the master key of test vector 1. -/
def vector1Text : List Byte :=
  cstr "xprv9s21ZrQH143K3QTDL4LXw2F7HEK3wJUD2nW2nRk4stbPy6cq3jPPqjiChkVvvNKmPGJxWUtg6LnF5kejMRNNU3TGtRBeJgk33yuGBxrMPHi"

/-- The specified text is that of the BIP, so `C54_to_string` says that it is written … -/
theorem vector1_xprv : xprv .main ⟨⟨0#8, 0#32, 0#32, vector1Chain⟩, vector1Key⟩ = vector1Text := by decide +kernel

/-- … and it is read. -/
example : exkeyFromString true .little true (vector1Text ++ [0#8]) 111
    ⟨⟨7#8, 7#32, 7#32, List.replicate 32 7#8⟩, List.replicate 32 7#8⟩ mainnet =
    .ok (⟨⟨0#8, 0#32, 0#32, vector1Chain⟩, vector1Key⟩, true) := by
  have h := (exkey_from_string_text true .little true .main .main ⟨⟨0#8, 0#32, 0#32, vector1Chain⟩, vector1Key⟩
    ⟨⟨7#8, 7#32, 7#32, List.replicate 32 7#8⟩, List.replicate 32 7#8⟩ [] (by unfold BufPriv; decide) (by unfold BufPriv; decide)).1 rfl
  rw [vector1_xprv] at h
  exact h

/-- A string of 83 characters `1` is one that overruns. -/
theorem C54_violated_witness (buf : ExKey) : exkeyFromString true .little true (List.replicate 83 (chr '1') ++ [0#8]) 83 buf mainnet = .ub :=
  C54_exkey_violated_overrun true .little true .main (List.replicate 83 (chr '1')) [] (List.replicate 83 0#8) buf
    (by decide +kernel) (by decide +kernel) (by decide)
