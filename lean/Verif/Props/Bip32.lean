import Verif.Lemmas.Bip32
import Verif.Model.Exkey
/-! Property theorems C51, C52 (BIP 32, `src/btc/key.c`, `src/btc/exkey.c`) and C60 (key identifiers). -/
open Key SecpLib Secp256k1 WordSpec Endian Bip32Spec Exkey

/-- C52 (private). `fingera_btc_key_derive` computes `CKDpriv` of BIP 32 for every valid key, chain code and 32-bit
index: on success it writes the child key and chain code and returns 1.  It returns 0 exactly if BIP 32
declares the index unusable; the key buffer is then zero and the chain code buffer holds `I_R`. -/
theorem C52_key_derive (nd : Bool) (host : Host) (key chain outKey outChain : List Byte) (child : U32)
    (hv : ValidKey key) (hc : chain.length = 32) (ho : 32 ≤ outKey.length) (ho' : 32 ≤ outChain.length) :
    keyDerive nd host key chain outKey outChain child = .ok
      (match ckdPriv (beNat key) chain child with
      | some (k, c) => ⟨true, over (ser256 k) outKey, over c outChain⟩
      | none => ⟨false, over (List.replicate 32 0#8) outKey, over ((privI (beNat key) chain child).drop 32) outChain⟩) := by
  have := keyDerive_eq nd host key chain outKey outChain child hv (by omega) ho ho'
  rwa [List.take_of_length_le (by omega)] at this

/-- C52 (public). `fingera_btc_pubkey_derive` computes `CKDpub` of BIP 32 for every point (given in compressed form),
chain code and non-hardened index. -/
theorem C52_pubkey_derive (nd : Bool) (host : Host) (x y : Nat) (chain outPub outChain : List Byte) (child : U32)
    (hon : OnCurve (some (x, y))) (hi : child.toNat < 2 ^ 31)
    (hc : chain.length = 32) (ho : 33 ≤ outPub.length) (ho' : 32 ≤ outChain.length) :
    pubkeyDerive nd host (compressed x y) chain outPub outChain child = .ok
      (match ckdPub (some (x, y)) chain child with
      | some (K, c) => ⟨true, over (serP K) outPub, over c outChain⟩
      | none => ⟨false, outPub, over ((pubI (some (x, y)) chain child).drop 32) outChain⟩) := by
  have := pubkeyDerive_eq nd host x y [] chain outPub outChain child hon hi (by omega) ho ho'
  rwa [List.take_of_length_le (by omega), List.append_nil] at this

/-- C52 (public, bad encodings). 33 bytes that do not encode a point are refused (without `NDEBUG` an assertion fails if the
first byte is neither 2 nor 3). -/
theorem C52_pubkey_derive_bad (nd : Bool) (host : Host) (enc chain outPub outChain : List Byte) (child : U32)
    (hl : enc.length = 33) (hi : child.toNat < 2 ^ 31)
    (hbad : ∀ x y, OnCurve (some (x, y)) → enc ≠ compressed x y) (hnd : nd = true ∨ enc.head? = some 2#8 ∨ enc.head? = some 3#8) :
    pubkeyDerive nd host enc chain outPub outChain child = .ok ⟨false, outPub, outChain⟩ := by
  match enc with
  | t :: rest =>
    have ha : assertNd nd (t == 2#8 || t == 3#8) = .ok () := by
      rcases hnd with h | h | h
      · rw [h]; rfl
      · simp at h; rw [h]; exact assertNd_true nd
      · simp at h; rw [h]; exact assertNd_true nd
    rw [pubkeyDerive, show (child >>> 31 == 0#32) = true from beq_iff_eq.2 ((shift31 child).2 hi), assertNd_true,
      Res.ok_bind, show rd (t :: rest) 0 = .ok t from rfl, Res.ok_bind, ha, Res.ok_bind]
    have hp : pubkeyDecode nd (t :: rest) 33 = .ok (none, false) := by
      rw [pubkeyDecode, show ((33:Nat) == 65 || (33:Nat) == 33) = true from rfl, assertNd_true, Res.ok_bind,
        if_neg (by simp)]
      rcases parse_total (t :: rest) 33 (by omega) with h | ⟨⟨x, y⟩, h⟩
      · exact h
      · have := (parse33_iff _ (by omega) _).1 h
        rw [List.take_of_length_le (by omega)] at this
        exact absurd this.1 (hbad x y this.2)
    simp only []
    rw [hp]; rfl

/-- An extended key object: arrays of the right size, the key valid. -/
def WfPriv (k : ExKey) : Prop := ValidKey k.key ∧ k.ext.chainCode.length = 32
/-- Buffers for extended keys: arrays of the right size. -/
def BufPriv (k : ExKey) : Prop := k.key.length = 32 ∧ k.ext.chainCode.length = 32
def BufPub (k : ExPubkey) : Prop := k.pubkey.length = 33 ∧ k.ext.chainCode.length = 32

theorem over_all {W out : List Byte} (h : W.length = out.length) : over W out = W := by
  rw [over, h]; simp

theorem ckdPriv_some {k : Nat} {c : List Byte} {i : U32} {k' : Nat} {c' : List Byte} (h : ckdPriv k c i = some (k', c')) :
    0 < k' ∧ k' < n ∧ c'.length = 32 := by
  rw [ckdPriv] at h
  split at h
  · cases h
  · rename_i hn
    rw [Option.some.injEq, Prod.mk.injEq] at h
    have hl := privI_length k c i
    rw [not_or] at hn
    rw [← h.1, ← h.2, List.length_drop, hl]
    exact ⟨Nat.pos_of_ne_zero hn.2, Nat.mod_lt _ n_pos, rfl⟩

theorem ser256_valid {k : Nat} (h0 : 0 < k) (h : k < n) : ValidKey (ser256 k) ∧ beNat (ser256 k) = k := by
  have e : beNat (ser256 k) = k := beNat_beBytes_lt 32 k (lt_trans h n_lt256)
  refine ⟨⟨beBytes_length 32 k, ?_, ?_⟩, e⟩ <;> rw [e] <;> assumption

/-- C52 (extended private keys). `fingera_exkey_derive` for every valid extended key, index and fingerprint. -/
theorem C52_exkey_derive (nd : Bool) (host : Host) (key der : ExKey) (child fp : U32)
    (hk : WfPriv key) (hd : BufPriv der) :
    exkeyDerive nd host key der child fp = .ok
      (match ckdPriv (beNat key.key) key.ext.chainCode child with
      | some (k, c) => (⟨⟨key.ext.depth + 1#8, fp, child, c⟩, ser256 k⟩, true)
      | none => (⟨{ der.ext with chainCode := (privI (beNat key.key) key.ext.chainCode child).drop 32 },
          List.replicate 32 0#8⟩, false)) := by
  have hI := privI_length (beNat key.key) key.ext.chainCode child
  rw [exkeyDerive, C52_key_derive nd host key.key key.ext.chainCode _ _ child hk.1 hk.2 (by rw [hd.1]) (by rw [hd.2]),
    Res.ok_bind]
  cases h : ckdPriv (beNat key.key) key.ext.chainCode child with
  | none =>
    simp only [Bool.false_eq_true, if_false, Res.pure_eq]
    rw [over_all (W := List.replicate 32 0#8) (by rw [List.length_replicate, hd.1]),
      over_all (by rw [List.length_drop, hI, hd.2])]
  | some kc =>
    obtain ⟨k, c⟩ := kc
    have := ckdPriv_some h
    simp only [if_true, Res.pure_eq]
    rw [over_all (W := ser256 k) (by rw [ser256, beBytes_length, hd.1]), over_all (W := c) (by rw [this.2.2, hd.2])]

theorem exkeyGetPub_eq (nd : Bool) (key : ExKey) (out : ExPubkey) (hk : WfPriv key) (ho : BufPub out) :
    ∃ x y, exkeyGetPub nd key out = .ok ⟨key.ext, compressed x y⟩ ∧ mul (beNat key.key) G = some (x, y) ∧
      OnCurve (some (x, y)) := by
  obtain ⟨x, y, h1, h2, h3⟩ := keyGetPub_eq nd key.key hk.1
  refine ⟨x, y, ?_, h2, h3⟩
  rw [exkeyGetPub, h1, Res.ok_bind, pubkeyEncode_eq nd x y _ 33 true rfl (by rw [ho.1]), Res.ok_bind]
  simp only [if_true, assertNd_true, Res.ok_bind, Res.pure_eq]
  rw [over_all (by rw [compressed_length, ho.1])]

/-- The point of the child is the child of the point. -/
theorem ckd_commute (k : Nat) (c : List Byte) (i : U32) (hk : k < n) (hi : i.toNat < 2 ^ 31) :
    ckdPub (mul k G) c i = (ckdPriv k c i).map (fun kc => (mul kc.1 G, kc.2)) := by
  have hI : privI k c i = pubI (mul k G) c i := by rw [privI, if_neg (by omega)]; rfl
  rw [ckdPub, ckdPriv, hI]
  obtain ⟨I, hIe⟩ : ∃ I, I = pubI (mul k G) c i := ⟨_, rfl⟩
  have hl := pubI_length (mul k G) c i
  rw [← hIe] at hl ⊢
  have hlt : parse256 (I.take 32) < 2 ^ 256 := by
    have := beNat_lt_pow (I.take 32)
    rw [List.length_take, hl] at this
    norm_num at this ⊢
    exact this
  have hk2 : k < 2 ^ 256 := lt_trans hk n_lt
  have hadd := mul_G_add hlt hk2
  have hs : (parse256 (I.take 32) + k) % n < 2 ^ 256 := lt_trans (Nat.mod_lt _ n_pos) n_lt
  have hz : add (mul (parse256 (I.take 32)) G) (mul k G) = none ↔ (parse256 (I.take 32) + k) % n = 0 := by
    rw [← hadd, mul_G_eq_none hs]
    constructor
    · intro hd
      exact Nat.eq_zero_of_dvd_of_lt hd (Nat.mod_lt _ n_pos)
    · intro h; rw [h]; exact dvd_zero _
  simp only [hz]
  by_cases h : n ≤ parse256 (I.take 32) ∨ (parse256 (I.take 32) + k) % n = 0
  · rw [if_pos h, if_pos h]; rfl
  · rw [if_neg h, if_neg h, ← hadd]; rfl

/-- C52 (extended public keys). -/
theorem C52_expubkey_derive (nd : Bool) (host : Host) (ext : Ext) (x y : Nat) (der : ExPubkey) (child fp : U32)
    (hon : OnCurve (some (x, y))) (hc : ext.chainCode.length = 32) (hi : child.toNat < 2 ^ 31) (hd : BufPub der) :
    expubkeyDerive nd host ⟨ext, compressed x y⟩ der child fp = .ok
      (match ckdPub (some (x, y)) ext.chainCode child with
      | some (K, c) => (⟨⟨ext.depth + 1#8, fp, child, over c der.ext.chainCode⟩, over (serP K) der.pubkey⟩, true)
      | none => (⟨{ der.ext with chainCode := (pubI (some (x, y)) ext.chainCode child).drop 32 }, der.pubkey⟩, false)) := by
  have hI := pubI_length (some (x, y)) ext.chainCode child
  rw [expubkeyDerive, C52_pubkey_derive nd host x y ext.chainCode _ _ child hon hi hc (by rw [hd.1]) (by rw [hd.2]),
    Res.ok_bind]
  cases h : ckdPub (some (x, y)) ext.chainCode child with
  | none =>
    simp only [Bool.not_false, if_true, Res.pure_eq]
    rw [over_all (by rw [List.length_drop, hI, hd.2])]
  | some kc => rfl

/-- C51. For every valid extended private key, non-hardened index and fingerprint: either both derivations
succeed, the child private key is valid again, and its extended public key is the one derived from the
parent's extended public key; or both fail. -/
theorem C51_derivation_commutes (nd : Bool) (host : Host) (key der : ExKey) (out out' der' : ExPubkey) (child fp : U32)
    (hk : WfPriv key) (hd : BufPriv der) (ho : BufPub out) (ho' : BufPub out') (hd' : BufPub der')
    (hi : child.toNat < 2 ^ 31) :
    ∃ pub, exkeyGetPub nd key out = .ok pub ∧
      ((∃ ckey cpub, exkeyDerive nd host key der child fp = .ok (ckey, true) ∧ WfPriv ckey ∧
          exkeyGetPub nd ckey out' = .ok cpub ∧
          expubkeyDerive nd host pub der' child fp = .ok (cpub, true)) ∨
       (∃ m m', exkeyDerive nd host key der child fp = .ok (m, false) ∧
          expubkeyDerive nd host pub der' child fp = .ok (m', false))) := by
  obtain ⟨x, y, h1, h2, h3⟩ := exkeyGetPub_eq nd key out hk ho
  refine ⟨_, h1, ?_⟩
  have hcomm := ckd_commute (beNat key.key) key.ext.chainCode child hk.1.2.2 hi
  rw [h2] at hcomm
  rw [C52_exkey_derive nd host key der child fp hk hd,
    C52_expubkey_derive nd host key.ext x y der' child fp h3 hk.2 hi hd', hcomm]
  cases h : ckdPriv (beNat key.key) key.ext.chainCode child with
  | none => exact .inr ⟨_, _, rfl, rfl⟩
  | some kc =>
    obtain ⟨k, c⟩ := kc
    left
    obtain ⟨s1, s2, s3⟩ := ckdPriv_some h
    obtain ⟨v1, v2⟩ := ser256_valid s1 s2
    have hw : WfPriv ⟨⟨key.ext.depth + 1#8, fp, child, c⟩, ser256 k⟩ := ⟨v1, s3⟩
    obtain ⟨x', y', g1, g2, g3⟩ := exkeyGetPub_eq nd _ out' hw ho'
    refine ⟨_, _, rfl, hw, g1, ?_⟩
    simp only [v2] at g2
    simp only [Option.map_some, g2]
    rw [over_all (W := c) (by rw [s3, hd'.2]), over_all (W := serP _) (by rw [serP, compressed_length, hd'.1]), serP]

/-- Derivation along a path, the code a user writes: one call after another, giving up at the first failure. -/
def privPath (nd : Bool) (host : Host) (buf : ExKey) (key : ExKey) : List (U32 × U32) → Res (ExKey × Bool)
  | [] => .ok (key, true)
  | (child, fp) :: rest => do
    let (key, ok) ← exkeyDerive nd host key buf child fp
    if ok then privPath nd host buf key rest else pure (key, false)

def pubPath (nd : Bool) (host : Host) (buf : ExPubkey) (key : ExPubkey) : List (U32 × U32) → Res (ExPubkey × Bool)
  | [] => .ok (key, true)
  | (child, fp) :: rest => do
    let (key, ok) ← expubkeyDerive nd host key buf child fp
    if ok then pubPath nd host buf key rest else pure (key, false)

/-- C51 (paths). The same for every path of non-hardened indices, of any length. -/
theorem C51_paths_commute (nd : Bool) (host : Host) (buf : ExKey) (pbuf out out' : ExPubkey) (path : List (U32 × U32))
    (hb : BufPriv buf) (hpb : BufPub pbuf) (ho : BufPub out) (ho' : BufPub out') (key : ExKey) (hk : WfPriv key)
    (hp : ∀ s ∈ path, s.1.toNat < 2 ^ 31) :
    ∃ pub, exkeyGetPub nd key out = .ok pub ∧
      ((∃ ckey cpub, privPath nd host buf key path = .ok (ckey, true) ∧ WfPriv ckey ∧
          exkeyGetPub nd ckey out' = .ok cpub ∧ pubPath nd host pbuf pub path = .ok (cpub, true)) ∨
       (∃ m m', privPath nd host buf key path = .ok (m, false) ∧ pubPath nd host pbuf pub path = .ok (m', false))) := by
  induction path generalizing key out with
  | nil =>
    obtain ⟨x, y, h1, h2, h3⟩ := exkeyGetPub_eq nd key out hk ho
    obtain ⟨x', y', g1, g2, g3⟩ := exkeyGetPub_eq nd key out' hk ho'
    rw [h2] at g2
    injection g2 with g2
    injection g2 with gx gy
    exact ⟨_, h1, .inl ⟨_, _, rfl, hk, by rw [g1, ← gx, ← gy], rfl⟩⟩
  | cons s path ih =>
    obtain ⟨child, fp⟩ := s
    obtain ⟨pub, h1, h⟩ := C51_derivation_commutes nd host key buf out out' pbuf child fp hk hb ho ho' hpb
      (hp _ (List.mem_cons_self))
    refine ⟨pub, h1, ?_⟩
    rcases h with ⟨ckey, cpub, e1, hw, e2, e3⟩ | ⟨m, m', e1, e2⟩
    · obtain ⟨pub', i1, i2⟩ := ih out' ho' ckey hw (fun s hs => hp s (List.mem_cons_of_mem _ hs))
      rw [e2] at i1
      injection i1 with i1
      subst i1
      simp only [privPath, pubPath, e1, e3, Res.ok_bind, if_true]
      exact i2
    · right
      exact ⟨m, m', by rw [privPath, e1]; rfl, by rw [pubPath, e2]; rfl⟩

/-- C60 (identifiers). For every valid key, `fingera_btc_key_keyid` and `fingera_btc_pubkey_keyid` of its public key give
HASH160 of the (compressed or uncompressed) public key. -/
theorem C60_keyids (nd : Bool) (host : Host) (key keyid keyid' : List Byte) (compr : Bool) (hv : ValidKey key)
    (hl : 20 ≤ keyid.length) (hl' : 20 ≤ keyid'.length) :
    ∃ pk, keyGetPub nd key = .ok pk ∧
      keyKeyid nd host key compr keyid = .ok (over (BtcHashSpec.hash160 (DerSpec.point compr (mul (beNat key) G))) keyid) ∧
      pubkeyKeyid nd host pk compr keyid' = .ok (over (BtcHashSpec.hash160 (DerSpec.point compr (mul (beNat key) G))) keyid') := by
  obtain ⟨x, y, h1, h2, h3⟩ := keyGetPub_eq nd key hv
  refine ⟨_, h1, ?_⟩
  have main : ∀ kid : List Byte, 20 ≤ kid.length → pubkeyKeyid nd host (some (x, y)) compr kid =
      .ok (over (BtcHashSpec.hash160 (DerSpec.point compr (mul (beNat key) G))) kid) := by
    intro kid hkid
    rw [pubkeyKeyid]
    simp only []
    rw [pubkeyEncode_eq nd x y _ _ compr rfl (by cases compr <;> simp), Res.ok_bind]
    simp only []
    rw [assertNd_true, Res.ok_bind, BtcHash.hash160_eq host _ _ _ (by
      rw [over_length _ _ (by cases compr <;> simp [compressed_length, uncompressed_length])]
      cases compr <;> simp) (by cases compr <;> simp) (by omega), BtcHash.take_over (by
        cases compr <;> simp [compressed_length, uncompressed_length])]
    rw [show mul (beNat key) G = some (x, y) from h2]
    rfl
  refine ⟨?_, main _ hl'⟩
  rw [keyKeyid, h1, Res.ok_bind]
  exact main _ hl

/-- C60 (fingerprints). For every valid key, `fingera_btc_key_fingerprint(k, compressed)` and
`fingera_btc_pubkey_fingerprint` of its compressed public key are equal: the first four bytes of HASH160 of the
compressed public key, read as a little-endian number. -/
theorem C60_fingerprints (nd : Bool) (host : Host) (key : List Byte) (hv : ValidKey key) :
    let f := BitVec.ofNat 32 (leNat (fingerprint (mul (beNat key) G)))
    keyFingerprint nd host key true = .ok f ∧ pubkeyFingerprint host (serP (mul (beNat key) G)) = .ok f := by
  obtain ⟨x, y, h1, h2, h3⟩ := keyGetPub_eq nd key hv
  obtain ⟨pk, -, k1, -⟩ := C60_keyids nd host key (List.replicate 20 0xAA#8) (List.replicate 20 0xAA#8) true hv
    (by simp) (by simp)
  rw [over_all (by rw [BtcHash.hash160_length]; simp)] at k1
  have hm : mul (beNat key) G = some (x, y) := h2
  have hcl := compressed_length x y
  have hl := BtcHash.hash160_length (compressed x y)
  have hr : readLittle32 host (BtcHashSpec.hash160 (compressed x y)) 0 =
      .ok (BitVec.ofNat 32 (leNat ((BtcHashSpec.hash160 (compressed x y)).take 4))) := by
    rw [readLittle32_eq host _ 0 (by omega), ← leNat_reverse]; rfl
  constructor
  · rw [keyFingerprint, k1, Res.ok_bind, hm]
    exact hr
  · rw [pubkeyFingerprint, hm, serP, BtcHash.hash160_eq host _ 33 _ (by omega) (by omega) (by simp), Res.ok_bind,
      List.take_of_length_le (by omega), over_all (by rw [hl]; simp)]
    exact hr

/-- C61 (master keys). For every seed, `fingera_exkey_init` splits `HMAC-SHA512("Bitcoin seed", seed)` into key and chain
code, with depth, fingerprint and index 0. -/
theorem C61_master_key (host : Host) (buf : ExKey) (seed : List Byte) (hb : BufPriv buf)
    (hs : seed.length < 2 ^ 60) :
    let I := hmac (cstr "Bitcoin seed") seed
    exkeyInit host buf seed seed.length = .ok ⟨⟨0#8, 0#32, 0#32, I.drop 32⟩, I.take 32⟩ := by
  have hI : (hmac (cstr "Bitcoin seed") seed).length = 64 := Sha2.SHA512_length _
  have h := Sha2.hmac_sha512_eq host hashkey 12 seed seed.length (List.replicate 64 0xAA#8) (by decide)
    (by omega) (le_refl _) (by omega) (by simp)
  have e : HmacSpec.hmac Sha2Spec.SHA512 128 (hashkey.take 12) (seed.take seed.length) =
      hmac (cstr "Bitcoin seed") seed := by
    rw [List.take_of_length_le (l := seed) (le_refl _)]; rfl
  rw [e, over_all (by rw [hI]; simp)] at h
  rw [exkeyInit]
  simp only []
  rw [h, Res.ok_bind]
  rw [memcpy0 _ _ _ (by omega) (by rw [hb.1]), Res.ok_bind, memcpy0 _ _ _ (by rw [List.length_drop]; omega) (by rw [hb.2]),
    Res.ok_bind, over_all (by rw [List.length_take, List.length_drop, hI, hb.2]; rfl),
    over_all (by rw [List.length_take, hI, hb.1]; rfl),
    List.take_of_length_le (l := List.drop 32 _) (by rw [List.length_drop, hI])]
  rfl

/-! ## Concrete cases: test vector 1 of BIP 32 -/

/-- Seed 000102…0f of test vector 1. -/
def vector1Seed : List Byte := (List.range 16).map (BitVec.ofNat 8)

/-- The master key `m` of test vector 1 (from the BIP's text). -/
def vector1Key : List Byte := [
  0xe8#8, 0xf3#8, 0x2e#8, 0x72#8, 0x3d#8, 0xec#8, 0xf4#8, 0x05#8, 0x1a#8, 0xef#8, 0xac#8, 0x8e#8, 0x2c#8, 0x93#8, 0xc9#8, 0xc5#8,
  0xb2#8, 0x14#8, 0x31#8, 0x38#8, 0x17#8, 0xcd#8, 0xb0#8, 0x1a#8, 0x14#8, 0x94#8, 0xb9#8, 0x17#8, 0xc8#8, 0x43#8, 0x6b#8, 0x35#8]

def vector1Chain : List Byte := [
  0x87#8, 0x3d#8, 0xff#8, 0x81#8, 0xc0#8, 0x2f#8, 0x52#8, 0x56#8, 0x23#8, 0xfd#8, 0x1f#8, 0xe5#8, 0x16#8, 0x7e#8, 0xac#8, 0x3a#8,
  0x55#8, 0xa0#8, 0x49#8, 0xde#8, 0x3d#8, 0x31#8, 0x4b#8, 0xb4#8, 0x2e#8, 0xe2#8, 0x27#8, 0xff#8, 0xed#8, 0x37#8, 0xd5#8, 0x08#8]

/-- The model computes the BIP's master key. -/
example : exkeyInit .little ⟨⟨0xAA#8, 0xAA#32, 0xAA#32, List.replicate 32 0xAA#8⟩, List.replicate 32 0xAA#8⟩ vector1Seed 16 =
    .ok ⟨⟨0#8, 0#32, 0#32, vector1Chain⟩, vector1Key⟩ := by decide +kernel

/-- The hypotheses on keys are met: the master key is a well-formed private key with room for a derived key. -/
example : WfPriv ⟨⟨0#8, 0#32, 0#32, vector1Chain⟩, vector1Key⟩ ∧ BufPriv ⟨⟨0#8, 0#32, 0#32, vector1Chain⟩, vector1Key⟩ := by
  unfold WfPriv BufPriv; decide +kernel

/-- Key and chain code of `m/0'`. -/
def vector1Key0H : List Byte := [
  0xed#8, 0xb2#8, 0xe1#8, 0x4f#8, 0x9e#8, 0xe7#8, 0x7d#8, 0x26#8, 0xdd#8, 0x93#8, 0xb4#8, 0xec#8, 0xed#8, 0xe8#8, 0xd1#8, 0x6e#8,
  0xd4#8, 0x08#8, 0xce#8, 0x14#8, 0x9b#8, 0x6c#8, 0xd8#8, 0x0b#8, 0x07#8, 0x15#8, 0xa2#8, 0xd9#8, 0x11#8, 0xa0#8, 0xaf#8, 0xea#8]

def vector1Chain0H : List Byte := [
  0x47#8, 0xfd#8, 0xac#8, 0xbd#8, 0x0f#8, 0x10#8, 0x97#8, 0x04#8, 0x3b#8, 0x78#8, 0xc6#8, 0x3c#8, 0x20#8, 0xc3#8, 0x4e#8, 0xf4#8,
  0xed#8, 0x9a#8, 0x11#8, 0x1d#8, 0x98#8, 0x00#8, 0x47#8, 0xad#8, 0x16#8, 0x28#8, 0x2c#8, 0x7a#8, 0xe6#8, 0x23#8, 0x61#8, 0x41#8]

/-- A hardened derivation: `m/0'` of test vector 1. -/
example : exkeyDerive false .little ⟨⟨0#8, 0#32, 0#32, vector1Chain⟩, vector1Key⟩
    ⟨⟨0xAA#8, 0xAA#32, 0xAA#32, List.replicate 32 0xAA#8⟩, List.replicate 32 0xAA#8⟩ 0x80000000#32 0x57c24334#32 =
    .ok (⟨⟨1#8, 0x57c24334#32, 0x80000000#32, vector1Chain0H⟩, vector1Key0H⟩, true) := by decide +kernel

/-- A derivation that is not hardened: `m/0'/1` of test vector 1. -/
example : ckdPriv (beNat vector1Key0H) vector1Chain0H 1#32 = some (beNat [
  0x3c#8, 0x6c#8, 0xb8#8, 0xd0#8, 0xf6#8, 0xa2#8, 0x64#8, 0xc9#8, 0x1e#8, 0xa8#8, 0xb5#8, 0x03#8, 0x0f#8, 0xad#8, 0xaa#8, 0x8e#8,
  0x53#8, 0x8b#8, 0x02#8, 0x0f#8, 0x0a#8, 0x38#8, 0x74#8, 0x21#8, 0xa1#8, 0x2d#8, 0xe9#8, 0x31#8, 0x9d#8, 0xc9#8, 0x33#8, 0x68#8], [
  0x2a#8, 0x78#8, 0x57#8, 0x63#8, 0x13#8, 0x86#8, 0xba#8, 0x23#8, 0xda#8, 0xca#8, 0xc3#8, 0x41#8, 0x80#8, 0xdd#8, 0x19#8, 0x83#8,
  0x73#8, 0x4e#8, 0x44#8, 0x4f#8, 0xdb#8, 0xf7#8, 0x74#8, 0x04#8, 0x15#8, 0x78#8, 0xe9#8, 0xb6#8, 0xad#8, 0xb3#8, 0x7c#8, 0x19#8]) := by decide +kernel

theorem bind_eq_ok {α β : Type} {x : Res α} {f : α → Res β} {b : β} (h : (x >>= f) = .ok b) : ∃ a, x = .ok a ∧ f a = .ok b := by
  cases x with
  | ok a => exact ⟨a, rfl, h⟩
  | ub => cases h
  | abort => cases h

/-- C62 (depth) does not hold: a key at depth 255 can be derived from, and the child has depth 0, that of a master key (BIP 32
keeps the depth in one byte, so such a derivation must fail). -/
theorem C62_violated_depth_wraps : ∃ (key derived child : ExKey) (i fp : U32), WfPriv key ∧ BufPriv derived ∧
    key.ext.depth = 255#8 ∧ exkeyDerive false .little key derived i fp = .ok (child, true) ∧ child.ext.depth = 0#8 := by
  refine ⟨⟨⟨255#8, 0#32, 0#32, vector1Chain⟩, vector1Key⟩, ⟨⟨0#8, 0#32, 0#32, List.replicate 32 0#8⟩, List.replicate 32 0#8⟩,
    ⟨⟨0#8, 0#32, 0x80000000#32, vector1Chain0H⟩, vector1Key0H⟩, 0x80000000#32, 0#32, ?_, ?_, rfl, ?_, rfl⟩
  · unfold WfPriv; decide +kernel
  · unfold BufPriv; decide +kernel
  · decide +kernel

/-- What is left of C62: below depth 255 a successful derivation increases the depth by one, for private and public keys.
Missing: depth 255, where the code wraps (`C62_violated_depth_wraps`). -/
theorem C62_depth_partial (nd : Bool) (host : Host) (key derived : ExKey) (pub pderived : ExPubkey) (i fp : U32) :
    (∀ child, key.ext.depth ≠ 255#8 → exkeyDerive nd host key derived i fp = .ok (child, true) →
      child.ext.depth.toNat = key.ext.depth.toNat + 1) ∧
    (∀ child, pub.ext.depth ≠ 255#8 → expubkeyDerive nd host pub pderived i fp = .ok (child, true) →
      child.ext.depth.toNat = pub.ext.depth.toNat + 1) := by
  have inc : ∀ b : Byte, b ≠ 255#8 → (b + 1#8).toNat = b.toNat + 1 := by decide +kernel
  constructor
  · intro child hd h
    rw [exkeyDerive] at h
    obtain ⟨r, -, h⟩ := bind_eq_ok h
    by_cases hr : r.ok
    · simp only [hr, if_true] at h
      cases h; exact inc _ hd
    · simp [hr, pure] at h
  · intro child hd h
    rw [expubkeyDerive] at h
    obtain ⟨r, -, h⟩ := bind_eq_ok h
    by_cases hr : r.ok
    · simp only [hr] at h
      cases h; exact inc _ hd
    · simp [hr, pure] at h
