import Verif.Lemmas.Need
import Verif.Props.Hex
import Verif.Props.Base64
import Verif.Props.Base32
import Verif.Props.Base58Total
import Verif.Props.CompressInteger
import Verif.Props.Bech32
import Verif.Props.Hash
import Verif.Props.Exkey
import Verif.Props.Ecdsa
import Verif.Props.Injective
/-! Property theorems C94: the exact size of the output object every encoder and every hash function needs. -/
open Sha2Spec Sha1Spec RipemdSpec HmacSpec WordSpec AddressSpec WifSpec

/-- C94, hex: two characters per byte, and not one less. -/
theorem C94_to_hex (bs str : List Byte) (upper : Bool) :
    Hex.toHex bs bs.length str upper =
      if 2 * bs.length ≤ str.length then .ok (over (HexSpec.encode upper bs) str) else .ub := by
  have h := Need.exact (Frame.toHex bs bs.length upper) (HexSpec.encode upper bs) (fun o ho => by
    have := Hex.toHex_eq bs bs.length o upper (by omega) (by rw [Hex.encode_length] at ho; omega)
    rw [List.take_length] at this
    exact this) str
  rw [Hex.encode_length] at h
  exact h

/-- C94, base64 and its URL-safe form: what the length functions say, and not one less. -/
theorem C94_to_base64 (bs str : List Byte) :
    Base64.toBase64 bs bs.length str =
      (if Base64.toBase64Length bs.length ≤ str.length then .ok (over (Base64Spec.encode bs) str) else .ub) ∧
    Base64.toBase64Urlsafe bs bs.length str =
      (if Base64.toBase64UrlsafeLength bs.length ≤ str.length then .ok (over (Base64Spec.encodeRaw true bs) str) else .ub) := by
  have l1 := (C04_to_base64_rfc4648 bs (List.replicate (Base64.toBase64Length bs.length) 0#8) (by simp)).2
  have l2 := (C05_to_base64_urlsafe_rfc4648 bs (List.replicate (Base64.toBase64UrlsafeLength bs.length) 0#8) (by simp)).2
  constructor
  · have h := Need.exact (Frame.toBase64Impl bs bs.length false) (Base64Spec.encode bs)
      (fun o ho => (C04_to_base64_rfc4648 bs o (by omega)).1) str
    rw [l1] at h
    exact h
  · have h := Need.exact (Frame.toBase64Impl bs bs.length true) (Base64Spec.encodeRaw true bs)
      (fun o ho => (C05_to_base64_urlsafe_rfc4648 bs o (by omega)).1) str
    rw [l2] at h
    exact h

/-- C94, base32 and the five-bit groups. -/
theorem C94_to_base32 (bs str : List Byte) :
    Base32.toBase32 bs bs.length str =
      (if Base32.toBase32Length bs.length ≤ str.length then .ok (over (Base32Spec.encode bs) str) else .ub) ∧
    Base32.toBase32Raw bs bs.length str =
      (if (8 * bs.length + 4) / 5 ≤ str.length then
        .ok (over (Base32Spec.encodeRaw bs) str, (8 * bs.length + 4) / 5) else .ub) := by
  have l1 := (C09_to_base32_rfc4648 bs (List.replicate (Base32.toBase32Length bs.length) 0#8) (by simp)).2
  have l2 := (C09_to_base32_raw bs (List.replicate ((8 * bs.length + 4) / 5) 0#8) (by simp)).2.1
  constructor
  · have hf : Frame (fun o => Base32.toBase32 bs bs.length o) := by
      intro o x
      dsimp only
      rw [Base32.toBase32, Base32.toBase32]
      exact Sim.bind (Frame.toBase32Impl bs bs.length false o x) fun a b h => Sim.ret h.1
    have h := Need.exact hf (Base32Spec.encode bs) (fun o ho => (C09_to_base32_rfc4648 bs o (by omega)).1) str
    rw [l1] at h
    exact h
  · have h := Need.exact2 (Frame.toBase32Impl bs bs.length true) (Base32Spec.encodeRaw bs) (Base32Spec.encodeRaw bs).length
      (fun o ho => (C09_to_base32_raw bs o (by omega)).1) str
    rw [l2] at h
    exact h

/-- C94, base58: exactly the number of characters of the text, which the length function over-estimates.  (For more than 1,556,147,570
significant bytes see C14.) -/
theorem C94_to_base58 (bs str : List Byte) (hn : significant bs ≤ 1556147570) :
    Base58.toBase58 bs bs.length str =
      if (Base58Spec.encode bs).length ≤ str.length then
        .ok (over (Base58Spec.encode bs) str, (Base58Spec.encode bs).length) else .ub :=
  Need.exact2 (Frame.toBase58 bs bs.length) (Base58Spec.encode bs) _ (fun o ho => (C13_to_base58_any bs o).1 hn ho) str

/-- C94, base58 with prefix and checksum. -/
theorem C94_to_base58_check (host : Host) (buf pre str : List Byte) (hn : buf.length + pre.length + 4 < 2 ^ 30) :
    Base58Check.toBase58Check host buf buf.length pre pre.length str =
      if (Base58CheckSpec.encode (pre ++ buf)).length ≤ str.length then
        .ok (over (Base58CheckSpec.encode (pre ++ buf)) str, (Base58CheckSpec.encode (pre ++ buf)).length) else .ub :=
  Need.exact2 (Frame.toBase58Check host buf buf.length pre pre.length) (Base58CheckSpec.encode (pre ++ buf)) _ (fun o ho => by
    have := Base58Check.toBase58Check_eq host buf buf.length pre pre.length o (by omega) (by omega) hn
      (by rw [List.take_length, List.take_length]; exact ho)
    rw [List.take_length, List.take_length] at this
    exact this) str

/-- C94, bech32: what the length function says, and not one less. -/
theorem C94_bech32_encode (hrp b32 out : List Byte) (h : ∀ v ∈ b32, v.toNat < 32) :
    Bech32.encode hrp hrp.length b32 b32.length out =
      if Bech32.encodeLength hrp.length b32.length ≤ out.length then .ok (over (Bech32Spec.encode hrp b32) out) else .ub := by
  have hl : (Bech32Spec.encode hrp b32).length = Bech32.encodeLength hrp.length b32.length := Bech32.encode_length hrp b32
  have e := Need.exact (Frame.bech32 hrp hrp.length b32 b32.length) (Bech32Spec.encode hrp b32) (fun o ho => by
    have := Bech32.encode_eq hrp hrp.length b32 b32.length o (by omega) (by omega) (by rw [List.take_length]; exact h)
      (by rw [hl, Bech32.encodeLength] at ho; exact ho)
    rw [List.take_length, List.take_length] at this
    exact this) out
  rw [hl] at e
  exact e

/-- C94, variable-length integers: exactly the bytes of the encoding `W` of the number, which is the only complete one with its value. -/
theorem C94_encode_varint (tmp0 : List Byte) (v : U64) (ht : tmp0.length = 10) :
    ∃ W, VarintSpec.Complete W ∧ VarintSpec.value W = v.toNat ∧ ∀ buf : List Byte,
      CompressInteger.encodeVarint tmp0 v buf = if W.length ≤ buf.length then .ok (over W buf, W.length) else .ub :=
  ⟨CompressInteger.enc v.toNat, CompressInteger.enc_complete _, CompressInteger.enc_value _,
    Need.exact2 (Frame.encodeVarint tmp0 v) _ _ fun o ho => CompressInteger.encodeVarint_eq tmp0 o v ht ho⟩

/-- C94, hash functions: 20, 20, 32 and 64 bytes, and not one less. -/
theorem C94_hashes (host : Host) (msg hash : List Byte) (h : msg.length < 2 ^ 61) :
    Sha1.sha1 host msg msg.length hash = (if 20 ≤ hash.length then .ok (over (SHA1 msg) hash) else .ub) ∧
    Ripemd160.ripemd160 host msg msg.length hash = (if 20 ≤ hash.length then .ok (over (RIPEMD160 msg) hash) else .ub) ∧
    Sha2.sha2_256 host msg msg.length hash = (if 32 ≤ hash.length then .ok (over (SHA256 msg) hash) else .ub) ∧
    Sha2.sha2_512 host msg msg.length hash = (if 64 ≤ hash.length then .ok (over (SHA512 msg) hash) else .ub) := by
  have e := List.take_length (l := msg)
  refine ⟨?_, ?_, ?_, ?_⟩
  · have := Need.exact (Frame.sha1 host msg msg.length) (SHA1 msg) (fun o ho => by
      have := Sha1.sha1_eq host msg msg.length o (by omega) h (by rw [Sha1.SHA1_length] at ho; exact ho)
      rw [e] at this; exact this) hash
    rw [Sha1.SHA1_length] at this
    exact this
  · have := Need.exact (Frame.ripemd160 host msg msg.length) (RIPEMD160 msg) (fun o ho => by
      have := Ripemd160.ripemd160_eq host msg msg.length o (by omega) h (by rw [Ripemd160.RIPEMD160_length] at ho; exact ho)
      rw [e] at this; exact this) hash
    rw [Ripemd160.RIPEMD160_length] at this
    exact this
  · have := Need.exact (Frame.sha2_256 host msg msg.length) (SHA256 msg) (fun o ho => by
      have := Sha2.sha2_256_eq host msg msg.length o (by omega) h (by rw [Sha2.SHA256_length] at ho; exact ho)
      rw [e] at this; exact this) hash
    rw [Sha2.SHA256_length] at this
    exact this
  · have := Need.exact (Frame.sha2_512 host msg msg.length) (SHA512 msg) (fun o ho => by
      have := Sha2.sha2_512_eq host msg msg.length o (by omega) h (by rw [Sha2.SHA512_length] at ho; exact ho)
      rw [e] at this; exact this) hash
    rw [Sha2.SHA512_length] at this
    exact this

/-- C94, keyed hashes. -/
theorem C94_hmac (host : Host) (key msg out : List Byte) (hk : key.length < 2 ^ 61) (hm : msg.length + 128 < 2 ^ 61) :
    Sha2.hmac_sha256 host key key.length msg msg.length out =
      (if 32 ≤ out.length then .ok (over (hmac SHA256 64 key msg) out) else .ub) ∧
    Sha2.hmac_sha512 host key key.length msg msg.length out =
      (if 64 ≤ out.length then .ok (over (hmac SHA512 128 key msg) out) else .ub) := by
  have l1 : (hmac SHA256 64 key msg).length = 32 := Sha2.SHA256_length _
  have l2 : (hmac SHA512 128 key msg).length = 64 := Sha2.SHA512_length _
  constructor
  · have := Need.exact (Frame.hmac_sha256 host key key.length msg msg.length) (hmac SHA256 64 key msg) (fun o ho => by
      have := Sha2.hmac_sha256_eq host key key.length msg msg.length o (by omega) hk (by omega) (by omega) (by omega)
      rw [List.take_length, List.take_length] at this; exact this) out
    rw [l1] at this
    exact this
  · have := Need.exact (Frame.hmac_sha512 host key key.length msg msg.length) (hmac SHA512 128 key msg) (fun o ho => by
      have := Sha2.hmac_sha512_eq host key key.length msg msg.length o (by omega) hk (by omega) (by omega) (by omega)
      rw [List.take_length, List.take_length] at this; exact this) out
    rw [l2] at this
    exact this

/-- C94, the hashes of Bitcoin. -/
theorem C94_bitcoin_hashes (host : Host) (msg hash : List Byte) (h : msg.length < 2 ^ 61) :
    BtcHash.hash160 host msg msg.length hash = (if 20 ≤ hash.length then .ok (over (RIPEMD160 (SHA256 msg)) hash) else .ub) ∧
    BtcHash.hash256 host msg msg.length hash = (if 32 ≤ hash.length then .ok (over (SHA256 (SHA256 msg)) hash) else .ub) := by
  have e := List.take_length (l := msg)
  constructor
  · have := Need.exact (Frame.hash160 host msg msg.length) (RIPEMD160 (SHA256 msg)) (fun o ho => by
      have := BtcHash.hash160_eq host msg msg.length o (by omega) h (by rw [Ripemd160.RIPEMD160_length] at ho; exact ho)
      rw [e] at this; exact this) hash
    rw [Ripemd160.RIPEMD160_length] at this
    exact this
  · have := Need.exact (Frame.hash256 host msg msg.length) (SHA256 (SHA256 msg)) (fun o ho => by
      have := BtcHash.hash256_eq host msg msg.length o (by omega) h (by rw [Sha2.SHA256_length] at ho; exact ho)
      rw [e] at this; exact this) hash
    rw [Sha2.SHA256_length] at this
    exact this

/-- C94, the hash of BIP 32. -/
theorem C94_bip32_hash (host : Host) (chain : List Byte) (child : U32) (header : Byte) (data out : List Byte) (hc : chain.length = 32)
    (hd : data.length = 32) :
    BtcHash.bip32_hash host chain child header data out =
      if 64 ≤ out.length then .ok (over (hmac SHA512 128 chain (header :: data ++ beBytes 4 child.toNat)) out) else .ub := by
  have l : (hmac SHA512 128 chain (header :: data ++ beBytes 4 child.toNat)).length = 64 := Sha2.SHA512_length _
  have := Need.exact (Frame.bip32_hash host chain child header data) _
    (fun o ho => C32_bip32_hash host chain child header data o hc hd (by rw [l] at ho; exact ho)) out
  rw [l] at this
  exact this

theorem forLoop_split {σ : Type} (f : Nat → σ → Res σ) (a b i : Nat) (s s' : σ) (h : forLoop f i a s = .ok s') :
    forLoop f i (a + b) s = forLoop f (i + a) b s' := by
  induction a generalizing i s with
  | zero => rw [Nat.zero_add, Nat.add_zero]; rw [forLoop] at h; rw [Res.ok.inj h]
  | succ a ih =>
    rw [show a + 1 + b = (a + b) + 1 by omega, forLoop]
    rw [forLoop] at h
    cases hf : f i s with
    | ub => rw [hf] at h; cases h
    | abort => rw [hf] at h; cases h
    | ok t =>
      rw [hf] at h
      simp only [Res.ok_bind] at h ⊢
      rw [ih (i + 1) t h, show i + 1 + a = i + (a + 1) by omega]

/-- C94, the layer of a Merkle tree: 32 bytes for each pair of digests. -/
theorem C94_hash256_d64 (host : Host) (out inp : List Byte) (blocks : Nat) (hi : 64 * blocks ≤ inp.length) :
    BtcHash.hash256_d64 host out inp blocks =
      if 32 * blocks ≤ out.length then
        .ok (over ((List.range blocks).flatMap fun i => SHA256 (SHA256 ((inp.drop (64 * i)).take 64))) out) else .ub := by
  by_cases hb : 32 * blocks ≤ out.length
  · rw [if_pos hb]
    exact BtcHash.hash256_d64_eq host out inp blocks hb hi
  · rw [if_neg hb]
    have h1 := BtcHash.hash256_d64_eq host out inp (out.length / 32) (by omega) (by omega)
    rw [BtcHash.hash256_d64] at h1 ⊢
    obtain ⟨d, hd⟩ : ∃ d, blocks = out.length / 32 + (d + 1) := ⟨blocks - out.length / 32 - 1, by omega⟩
    have hl := BtcHash.digests_length inp (out.length / 32)
    generalize hq : out.length / 32 = q at *
    rw [hd, forLoop_split _ q (d + 1) 0 out _ h1, Nat.zero_add, forLoop]
    have hdrop : ((over (BtcHash.digests inp q) out).drop (32 * q)).length < 32 := by
      rw [over, List.drop_left' hl, hl, List.length_drop]; omega
    have hu : Sha2.d64Transform host ((over (BtcHash.digests inp q) out).drop (32 * q)) (inp.drop (64 * q)) = .ub := by
      have := Need.exact (Frame.d64Transform host (inp.drop (64 * q))) (SHA256 (SHA256 ((inp.drop (64 * q)).take 64)))
        (fun o ho => Sha2.d64Transform_eq host o (inp.drop (64 * q)) (by rw [Sha2.SHA256_length] at ho; exact ho)
          (by rw [List.length_drop]; omega)) ((over (BtcHash.digests inp q) out).drop (32 * q))
      rw [Sha2.SHA256_length, if_neg (by omega)] at this
      exact this
    rw [hu]
    rfl

/-- C94, the 74 bytes of an extended key. -/
theorem C94_exkey_encode (host : Host) (k : Exkey.ExKey) (pk : Exkey.ExPubkey) (code : List Byte) (hk : BufPriv k) (hpk : BufPub pk) :
    Exkey.exkeyEncode host k code = (if 74 ≤ code.length then .ok (over (privBytes k) code) else .ub) ∧
    Exkey.expubkeyEncode host pk code = (if 74 ≤ code.length then .ok (over (pubBytes pk) code) else .ub) := by
  constructor
  · have := Need.exact (Frame.exkeyEncode host k) (privBytes k)
      (fun o ho => (C53_encode_layout host k pk o hk hpk (by rw [privBytes_length k hk] at ho; exact ho)).1) code
    rw [privBytes_length k hk] at this
    exact this
  · have := Need.exact (Frame.expubkeyEncode host pk) (pubBytes pk)
      (fun o ho => (C53_encode_layout host k pk o hk hpk (by rw [pubBytes_length pk hpk] at ho; exact ho)).2) code
    rw [pubBytes_length pk hpk] at this
    exact this

/-- A text written by `to_base58_check` of fixed arguments that is known for large objects is known for all. -/
theorem check_text_need (f : List Byte → Res (List Byte × Nat)) (host : Host) (buf pre T : List Byte) (n m : Nat)
    (hf : ∀ s, f s = Base58Check.toBase58Check host buf n pre m s) (hn : n ≤ buf.length) (hm : m ≤ pre.length)
    (hsz : n + m + 4 < 2 ^ 30) (L : Nat) (hL : ∀ s : List Byte, L ≤ s.length → f s = .ok (over T s, T.length)) (str : List Byte) :
    f str = if T.length ≤ str.length then .ok (over T str, T.length) else .ub := by
  have e : T = Base58CheckSpec.encode (pre.take m ++ buf.take n) := by
    have h1 := hL (List.replicate (L + (Base58CheckSpec.encode (pre.take m ++ buf.take n)).length) 0#8) (by simp)
    rw [hf, Base58Check.toBase58Check_eq host buf n pre m _ hn hm hsz (by rw [List.length_replicate]; omega)] at h1
    obtain ⟨h2, h3⟩ := Prod.mk.inj (Res.ok.inj h1)
    exact (over_inj h2 h3).symm
  have hfr : Frame2 f := by
    intro o x
    rw [hf, hf]
    exact Frame.toBase58Check host buf n pre m o x
  refine Need.exact2 hfr T T.length (fun o ho => ?_) str
  rw [hf, Base58Check.toBase58Check_eq host buf n pre m o hn hm hsz (by rw [← e]; exact ho), ← e]

/-- C94, wallet import format: exactly the characters of the text, 51 or 52 for the usual keys, where the length function asks for 62. -/
theorem C94_key_to_string (host : Host) (net : Network) (key str : List Byte) (c : Bool) (hk : key.length = 32) :
    Key.keyToString host key str c net.param =
      if (wif net key c).length ≤ str.length then .ok (over (wif net key c) str, (wif net key c).length) else .ub := by
  obtain ⟨n1, n2, n3⟩ := net_secret net
  have hL := fun s hs => C45_key_to_string host net key s c hk hs
  cases c with
  | false =>
    refine check_text_need (fun s => Key.keyToString host key s false net.param) host key net.param.prefixSecretKey _ 32
      net.param.prefixSecretKeySize (fun s => ?_) (by omega) n1 (by omega) _ hL str
    rw [Key.keyToString]
    rfl
  | true =>
    have e33 : wr (key.take 32 ++ (List.replicate 33 0xAA#8).drop 32) 32 1#8 = .ok (key ++ [1#8]) := by
      rw [List.take_of_length_le (by omega), show (List.replicate 33 0xAA#8 : List Byte).drop 32 = [0xAA#8] from rfl, wr,
        if_pos (by simp [hk]), List.set_append_right _ _ (by omega), hk]
      rfl
    refine check_text_need (fun s => Key.keyToString host key s true net.param) host (key ++ [1#8]) net.param.prefixSecretKey _ 33
      net.param.prefixSecretKeySize (fun s => ?_) (by simp [hk]) n1 (by omega) _ hL str
    rw [Key.keyToString, if_pos rfl]
    dsimp only
    rw [memcpy_ok _ _ _ _ (by omega) (by simp)]
    simp only [List.take_zero, List.nil_append, Nat.zero_add, Res.ok_bind]
    rw [e33]
    rfl

/-- C94, the texts of extended keys. -/
theorem C94_exkey_to_string (host : Host) (net : Network) (k : Exkey.ExKey) (pk : Exkey.ExPubkey) (str : List Byte) (hk : BufPriv k)
    (hpk : BufPub pk) :
    Exkey.exkeyToString host k str net.param =
      (if (xprv net k).length ≤ str.length then .ok (over (xprv net k) str, (xprv net k).length) else .ub) ∧
    Exkey.expubkeyToString host pk str net.param =
      (if (xpub net pk).length ≤ str.length then .ok (over (xpub net pk) str, (xpub net pk).length) else .ub) := by
  obtain ⟨n1, n2, n3, n4, n5, n6, n7, n8⟩ := net_ext net
  obtain ⟨e1, e2⟩ := C53_encode_layout host k pk (List.replicate 74 0xAA#8) hk hpk (by simp)
  have l1 := privBytes_length k hk
  have l2 := pubBytes_length pk hpk
  constructor
  · refine check_text_need (fun s => Exkey.exkeyToString host k s net.param) host (privBytes k) net.param.prefixExtSecretKey _ 74 4
      (fun s => ?_) (by omega) n3 (by omega) _ (fun s hs => (C54_to_string host net k pk s hk hpk hs).1) str
    rw [Exkey.exkeyToString, e1, Res.ok_bind, Exkey.over_all (by rw [l1]; simp), n1]
  · refine check_text_need (fun s => Exkey.expubkeyToString host pk s net.param) host (pubBytes pk) net.param.prefixExtPublicKey _ 74 4
      (fun s => ?_) (by omega) n4 (by omega) _ (fun s hs => (C54_to_string host net k pk s hk hpk hs).2) str
    rw [Exkey.expubkeyToString, e2, Res.ok_bind, Exkey.over_all (by rw [l2]; simp), n2]

open Secp256k1 DerSpec in
/-- C94, public keys, private keys in DER and signatures (at most 72 bytes, `C68`): what is announced, and not one less. -/
theorem C94_key_encode (nd : Bool) (key out : List Byte) (compr : Bool) (x y : Nat) (hv : ValidKey key) :
    Key.pubkeyEncode nd (some (x, y)) out (if compr then 33 else 65) =
      (if (if compr then 33 else 65) ≤ out.length then
        .ok (over (if compr then compressed x y else uncompressed x y) out, true) else .ub) ∧
    Key.keyEncode nd key out (if compr then 214 else 279) =
      (if (if compr then 214 else 279) ≤ out.length then .ok (over (ecPrivateKey key compr) out, true) else .ub) := by
  constructor
  · have hl : (if compr then compressed x y else uncompressed x y).length = (if compr then 33 else 65) := by
      cases compr <;> simp [SecpLib.compressed_length, SecpLib.uncompressed_length]
    have := Need.exact2 (Frame.pubkeyEncode nd (some (x, y)) (if compr then 33 else 65))
      (if compr then compressed x y else uncompressed x y) true
      (fun o ho => Key.pubkeyEncode_eq nd x y o _ compr rfl (by rw [hl] at ho; exact ho)) out
    rw [hl] at this
    exact this
  · have hl := (C47_key_encode nd key (List.replicate (if compr then 214 else 279) 0#8) compr hv (by simp)).1
    have := Need.exact2 (Frame.keyEncode nd key (if compr then 214 else 279)) (ecPrivateKey key compr) true
      (fun o ho => (C47_key_encode nd key o compr hv (by rw [hl] at ho; exact ho)).2) out
    rw [hl] at this
    exact this

open Secp256k1 SecpLib DerSpec in
/-- C94, signatures: exactly the bytes of the DER text, 70 to 72 for the usual ones, where the documented size is 72. -/
theorem C94_signature_encode (sig : Sig) (out : List Byte) (hr : sig.r < n) (hs : sig.s < n) :
    Key.signatureEncode sig out =
      if (derSig sig.r sig.s).length ≤ out.length then .ok (over (derSig sig.r sig.s) out, (derSig sig.r sig.s).length) else .ub := by
  have hl := (Key.signatureEncode_eq sig (List.replicate 72 0#8) hr hs (by simp)).2
  rw [Key.signatureEncode, sigSerializeDer]
  dsimp only
  rw [if_neg (by omega)]
  by_cases ho : (derSig sig.r sig.s).length ≤ out.length
  · rw [if_pos ho, memcpy_ok _ _ _ _ (by omega) (by omega)]
    simp only [List.take_zero, List.nil_append, Nat.zero_add, Res.ok_bind, Res.pure_eq, if_true, List.take_length]
    rfl
  · rw [if_neg ho, memcpy, if_neg (by omega)]
    rfl
