import Verif.Props.Exkey
import Verif.Props.Ecdsa
import Verif.Props.Address
/-! C89: the owner of an extended key and a watcher who has only its public text agree about all keys and addresses below it. -/
namespace Wallet
open Exkey Key AddressSpec Base58Check SecpLib Secp256k1 WordSpec Address

/-- The owner publishes the text of the public half of an extended key. -/
def publish (nd : Bool) (host : Host) (key : ExKey) (out : ExPubkey) (str : List Byte) (net : ChainParameters) : Res (List Byte) := do
  let pk ← exkeyGetPub nd key out
  let (s, n) ← expubkeyToString host pk str net
  pure (s.take n)

/-- The owner writes down the text of an extended key. -/
def backup (host : Host) (key : ExKey) (str : List Byte) (net : ChainParameters) : Res (List Byte) := do
  let (s, n) ← exkeyToString host key str net
  pure (s.take n)

/-- The secret key the owner finds at the end of a path, if every step succeeds. -/
def ownerKey (nd : Bool) (host : Host) (buf key : ExKey) (path : List (U32 × U32)) : Res (Option (List Byte)) := do
  let (k, ok) ← privPath nd host buf key path
  pure (if ok then some k.key else none)

/-- The same, starting from the text written down (`len` characters and a NUL). -/
def restoredKey (nd : Bool) (host : Host) (cs : Bool) (kbuf buf : ExKey) (text : List Byte) (len : Nat) (path : List (U32 × U32))
    (net : ChainParameters) : Res (Option (List Byte)) := do
  let (key, ok) ← exkeyFromString nd host cs text len kbuf net
  if ok then ownerKey nd host buf key path else pure none

/-- What a watcher does with the end of a path: parse the 33 bytes of the public key. -/
def parsed (nd : Bool) (pk : ExPubkey) : Res (Option PubObj) := do
  let (P, ok) ← pubkeyDecode nd pk.pubkey 33
  pure (if ok then some P else none)

def watchFrom (nd : Bool) (host : Host) (pbuf pub : ExPubkey) (path : List (U32 × U32)) : Res (Option PubObj) := do
  let (pk, ok) ← pubPath nd host pbuf pub path
  if ok then parsed nd pk else pure none

/-- The public key a watcher finds at the end of a path, starting from the published text (`len` characters and a NUL). -/
def watchKey (nd : Bool) (host : Host) (cs : Bool) (pbuf pbuf' : ExPubkey) (text : List Byte) (len : Nat) (path : List (U32 × U32))
    (net : ChainParameters) : Res (Option PubObj) := do
  let (pub, ok) ← expubkeyFromString nd host cs text len pbuf net
  if ok then watchFrom nd host pbuf' pub path else pure none

/-- Address of 20 bytes, of the old or of the witness form. -/
def addressOf (nd : Bool) (host : Host) (wit : Bool) (kid out : List Byte) (net : ChainParameters) : Res (List Byte × Nat) :=
  if wit then toAddressWitnessV0Keyhash nd kid 20 out out.length net else toAddressPubkey host kid 20 out out.length net

/-- Address of the owner's key. -/
def ownerAddress (nd : Bool) (host : Host) (wit : Bool) (key kid out : List Byte) (net : ChainParameters) : Res (List Byte) := do
  let kid ← keyKeyid nd host key true kid
  let (s, n) ← addressOf nd host wit kid out net
  pure (s.take n)

/-- Address of the watcher's key. -/
def watchAddress (nd : Bool) (host : Host) (wit : Bool) (P : PubObj) (kid out : List Byte) (net : ChainParameters) : Res (List Byte) := do
  let kid ← pubkeyKeyid nd host P true kid
  let (s, n) ← addressOf nd host wit kid out net
  pure (s.take n)

/-- Derivation does not depend on the build. -/
theorem derive_any (key der : ExKey) (child fp : U32) (hk : WfPriv key) (hd : BufPriv der) :
    ∃ r ok, (∀ nd host, exkeyDerive nd host key der child fp = .ok (r, ok)) ∧ (ok = true → WfPriv r) := by
  have h := fun nd host => C52_exkey_derive nd host key der child fp hk hd
  cases hc : Bip32Spec.ckdPriv (beNat key.key) key.ext.chainCode child with
  | none =>
    rw [hc] at h
    exact ⟨_, false, h, fun h => Bool.noConfusion h⟩
  | some kc =>
    obtain ⟨k, c⟩ := kc
    rw [hc] at h
    obtain ⟨s1, s2, s3⟩ := ckdPriv_some hc
    exact ⟨_, true, h, fun _ => ⟨(ser256_valid s1 s2).1, s3⟩⟩

theorem privPath_any (buf : ExKey) (hb : BufPriv buf) (path : List (U32 × U32)) (key : ExKey) (hk : WfPriv key) :
    ∃ r, ∀ nd host, privPath nd host buf key path = .ok r := by
  induction path generalizing key with
  | nil => exact ⟨_, fun _ _ => rfl⟩
  | cons s path ih =>
    obtain ⟨child, fp⟩ := s
    obtain ⟨r, ok, h1, h2⟩ := derive_any key buf child fp hk hb
    cases ok with
    | false => exact ⟨(r, false), fun nd host => by rw [privPath, h1]; rfl⟩
    | true =>
      obtain ⟨q, hq⟩ := ih r (h2 rfl)
      exact ⟨q, fun nd host => by rw [privPath, h1, Res.ok_bind]; exact hq nd host⟩

/-- The text published. -/
theorem publish_eq (nd : Bool) (host : Host) (net : Network) (key : ExKey) (out : ExPubkey) (str : List Byte) (hk : WfPriv key)
    (ho : BufPub out) (hs : toBase58CheckLength 74 8 ≤ str.length) :
    ∃ pub, exkeyGetPub nd key out = .ok pub ∧ BufPub pub ∧ publish nd host key out str net.param = .ok (xpub net pub) := by
  obtain ⟨x, y, h1, -, -⟩ := exkeyGetPub_eq nd key out hk ho
  have hb : BufPub ⟨key.ext, compressed x y⟩ := ⟨compressed_length x y, hk.2⟩
  refine ⟨_, h1, hb, ?_⟩
  have := (C54_to_string host net ⟨key.ext, key.key⟩ ⟨key.ext, compressed x y⟩ str ⟨hk.1.1, hk.2⟩ hb hs).2
  rw [publish, h1, Res.ok_bind, this, Res.ok_bind]
  simp only [Res.pure_eq]
  rw [BtcHash.take_over rfl]

theorem privPath_host (nd nd' : Bool) (host host' : Host) (buf : ExKey) (hb : BufPriv buf) (path : List (U32 × U32)) (key : ExKey)
    (hk : WfPriv key) : privPath nd host buf key path = privPath nd' host' buf key path := by
  obtain ⟨r, h⟩ := privPath_any buf hb path key hk
  rw [h, h]

/-- The address of a key, on either side. -/
theorem addressOf_eq (nd : Bool) (host : Host) (wit : Bool) (net : Network) (kid out : List Byte) (h20 : kid.length = 20)
    (ho : 44 ≤ out.length) :
    addressOf nd host wit kid out net.param =
      .ok (over (if wit then witness net.hrp 0#8 kid else base58 net.pubkeyVersion kid) out,
        (if wit then witness net.hrp 0#8 kid else base58 net.pubkeyVersion kid).length) := by
  cases wit with
  | true =>
    have h := (C41_witness_v0_encoders net nd kid out out.length (Nat.le_refl _)).1
    rw [h20, if_pos rfl] at h
    rw [addressOf, if_pos rfl, h, if_neg]
    · rfl
    · rw [C41_witness_length, h20]
      have : net.hrp.length ≤ 4 := by cases net <;> decide
      omega
  | false =>
    have h := (C41_base58_encoders net host kid out out.length (by omega) (Nat.le_refl _)).1
    rw [h20] at h
    rw [addressOf, if_neg (by decide), h, if_neg]
    · rfl
    · have : toBase58CheckLength 20 1 ≤ 44 := by decide +kernel
      omega

end Wallet
open Wallet Exkey Key AddressSpec Base58Check SecpLib Secp256k1 WordSpec Address

/-- C89. The owner of an extended key publishes the text of its public half. Whoever reads it, on whatever machine, finds along any
path of non-hardened steps exactly the public keys of the secret keys the owner finds (or both find that the path does not exist),
the same addresses, and accepts the owner's signatures. -/
theorem C89_watch_only (nd nd' : Bool) (host host' : Host) (cs : Bool) (net : Network) (key buf : ExKey) (out pbuf pbuf' : ExPubkey)
    (str post : List Byte) (path : List (U32 × U32)) (hk : WfPriv key) (hb : BufPriv buf) (ho : BufPub out) (hp : BufPub pbuf)
    (hp' : BufPub pbuf') (hs : toBase58CheckLength 74 8 ≤ str.length) (hpath : ∀ s ∈ path, s.1.toNat < 2 ^ 31) :
    ∃ text, publish nd host key out str net.param = .ok text ∧
      ((ownerKey nd host buf key path = .ok none ∧
        watchKey nd' host' cs pbuf pbuf' (text ++ 0#8 :: post) text.length path net.param = .ok none) ∨
       ∃ k P, ownerKey nd host buf key path = .ok (some k) ∧ ValidKey k ∧
        watchKey nd' host' cs pbuf pbuf' (text ++ 0#8 :: post) text.length path net.param = .ok (some P) ∧
        keyGetPub nd k = .ok P ∧
        (∀ wit kid kid' a a', kid.length = 20 → kid'.length = 20 → 44 ≤ a.length → 44 ≤ a'.length →
          ∃ addr, ownerAddress nd host wit k kid a net.param = .ok addr ∧ watchAddress nd' host' wit P kid' a' net.param = .ok addr) ∧
        (∀ sf fuel hash sig, hash.length = 32 → keySign nd host sf fuel k hash = .ok (some sig) → keyVerify P hash sig = .ok true)) := by
  obtain ⟨pub, g1, g2, g3⟩ := publish_eq nd host net key out str hk ho hs
  refine ⟨_, g3, ?_⟩
  have imp := (expubkey_from_string_text nd' host' cs net net pub pbuf post g2 hp).1 rfl
  have hw : watchKey nd' host' cs pbuf pbuf' (xpub net pub ++ 0#8 :: post) (xpub net pub).length path net.param =
      watchFrom nd' host' pbuf' pub path := by
    rw [watchKey, imp, Res.ok_bind]; rfl
  rw [hw]
  have gp : exkeyGetPub nd' key out = .ok pub := by
    obtain ⟨x, y, e1, e2, -⟩ := exkeyGetPub_eq nd key out hk ho
    obtain ⟨x', y', e1', e2', -⟩ := exkeyGetPub_eq nd' key out hk ho
    rw [e2] at e2'
    injection e2' with e2'
    injection e2' with ex ey
    rw [e1', ← ex, ← ey, ← e1, g1]
  obtain ⟨pub', h1, h2⟩ := C51_paths_commute nd' host' buf pbuf' out out path hb hp' ho ho key hk hpath
  rw [gp] at h1
  injection h1 with h1
  subst h1
  rw [ownerKey, privPath_host nd nd' host host' buf hb path key hk, watchFrom]
  rcases h2 with ⟨ckey, cpub, e1, hw, e2, e3⟩ | ⟨m, m', e1, e2⟩
  · right
    obtain ⟨x, y, c1, c2, c3⟩ := exkeyGetPub_eq nd' ckey out hw ho
    rw [c1] at e2
    injection e2 with e2
    rw [e1, e3, ← e2]
    simp only [Res.ok_bind, if_true, Res.pure_eq]
    obtain ⟨x', y', k1, k2, k3⟩ := keyGetPub_eq nd ckey.key hw.1
    have exy : some (x', y') = some (x, y) := by rw [← c2, ← k2]; rfl
    rw [exy] at k1
    refine ⟨_, some (x, y), rfl, hw.1, ?_, k1, ?_, ?_⟩
    · obtain ⟨enc, i1, i2, -, i4⟩ := C67_pubkey_roundtrip nd' x y (List.replicate 33 0#8) true c3 (by simp)
      rw [if_pos rfl] at i1 i2
      rw [i2, i1] at i4
      rw [parsed, i4]; rfl
    · intro wit kid kid' a a' hkid hkid' ha ha'
      obtain ⟨pk, j1, j2, -⟩ := C60_keyids nd host ckey.key kid kid true hw.1 (by omega) (by omega)
      obtain ⟨pk', j1', -, j3⟩ := C60_keyids nd' host' ckey.key kid' kid' true hw.1 (by omega) (by omega)
      rw [_root_.over_all (by rw [BtcHash.hash160_length]; omega)] at j2 j3
      obtain ⟨x', y', k1', k2', -⟩ := keyGetPub_eq nd' ckey.key hw.1
      have exy : some (x', y') = some (x, y) := by rw [← c2, ← k2']; rfl
      rw [k1', exy] at j1'
      injection j1' with j1'
      have hl : (BtcHashSpec.hash160 (DerSpec.point true (mul (beNat ckey.key) G))).length = 20 := BtcHash.hash160_length _
      refine ⟨if wit then witness net.hrp 0#8 (BtcHashSpec.hash160 (DerSpec.point true (mul (beNat ckey.key) G)))
          else base58 net.pubkeyVersion (BtcHashSpec.hash160 (DerSpec.point true (mul (beNat ckey.key) G))), ?_, ?_⟩
      · rw [ownerAddress, j2, Res.ok_bind, addressOf_eq nd host wit net _ a hl ha, Res.ok_bind]
        simp only [Res.pure_eq]
        rw [BtcHash.take_over rfl]
      · rw [watchAddress, j1', j3, Res.ok_bind, addressOf_eq nd' host' wit net _ a' hl ha', Res.ok_bind]
        simp only [Res.pure_eq]
        rw [BtcHash.take_over rfl]
    · intro sf fuel hash sig hh hsig
      obtain ⟨pk, v1, v2⟩ := C65_sign_verify nd host sf fuel ckey.key hash sig hw.1 hh hsig
      rw [k1] at v1
      injection v1 with v1
      rw [v1]; exact v2
  · left
    rw [e1, e2]
    exact ⟨rfl, rfl⟩

/-- C89 (restoring). From the text of the extended key written down the same secret keys are found again, along every path (hardened
steps included) and on every machine. -/
theorem C89_restore (nd nd' : Bool) (host host' : Host) (cs : Bool) (net : Network) (key buf kbuf : ExKey) (str post : List Byte)
    (path : List (U32 × U32)) (hk : WfPriv key) (hb : BufPriv buf) (hkb : BufPriv kbuf)
    (hs : toBase58CheckLength 74 8 ≤ str.length) :
    ∃ text r, backup host key str net.param = .ok text ∧ ownerKey nd host buf key path = .ok r ∧
      restoredKey nd' host' cs kbuf buf (text ++ 0#8 :: post) text.length path net.param = .ok r := by
  have hbk : BufPriv key := ⟨hk.1.1, hk.2⟩
  have h1 := (C54_to_string host net key ⟨key.ext, List.replicate 33 0#8⟩ str hbk ⟨by simp, hk.2⟩ hs).1
  have imp := (exkey_from_string_text nd' host' cs net net key kbuf post hbk hkb).1 rfl
  obtain ⟨r, hr⟩ : ∃ r, ownerKey nd host buf key path = .ok r := by
    obtain ⟨r, hr⟩ := privPath_any buf hb path key hk
    have hr := hr nd host
    exact ⟨_, by rw [ownerKey, hr]; rfl⟩
  refine ⟨xprv net key, r, ?_, hr, ?_⟩
  · rw [backup, h1, Res.ok_bind]
    simp only [Res.pure_eq]
    rw [BtcHash.take_over rfl]
  · rw [restoredKey, imp, Res.ok_bind]
    simp only [if_true]
    rw [← hr, ownerKey, ownerKey, privPath_host nd nd' host host' buf hb path key hk]

/-- C89 (payment). Whoever reads the address of a key gets the kind "public key" and HASH160 of the compressed public key. -/
theorem C89_payment (nd : Bool) (host host' : Host) (cs : Bool) (net : Network) (stack key kid a post out : List Byte) (hv : ValidKey key)
    (h20 : kid.length = 20) (ha : 44 ≤ a.length) (ho : 40 ≤ out.length) :
    ∃ addr mem, ownerAddress nd host false key kid a net.param = .ok addr ∧
      addressDecode host' cs stack (addr ++ 0#8 :: post) addr.length out out.length net.param = .ok ⟨.pubkey, mem, 20⟩ ∧
      mem.take 20 = BtcHashSpec.hash160 (DerSpec.point true (mul (beNat key) G)) := by
  obtain ⟨pk, -, j2, -⟩ := C60_keyids nd host key kid kid true hv (by omega) (by omega)
  rw [_root_.over_all (by rw [BtcHash.hash160_length]; omega)] at j2
  have hl : (BtcHashSpec.hash160 (DerSpec.point true (mul (beNat key) G))).length = 20 := BtcHash.hash160_length _
  generalize BtcHashSpec.hash160 (DerSpec.point true (mul (beNat key) G)) = h at j2 hl ⊢
  have k44 : toBase58CheckLength 20 1 ≤ 36 := by decide +kernel
  obtain ⟨text, t1, t2⟩ := C38_pubkey_roundtrip net host' cs stack h a post out (by omega) (by rw [hl]; omega) (by omega)
  have e := addressOf_eq nd host false net h a hl ha
  have e' := addressOf_eq nd host' false net h a hl ha
  rw [if_neg (by decide)] at e e'
  rw [addressOf, if_neg (by decide)] at e'
  rw [hl, e'] at t1
  obtain ⟨t1a, t1b⟩ := Prod.mk.inj (Res.ok.inj t1)
  have ht : text = base58 net.pubkeyVersion h := by
    have := congrArg (List.take text.length) t1a
    rw [BtcHash.take_over rfl, BtcHash.take_over t1b] at this
    exact this.symm
  have hle : text.length ≤ 36 := by
    rw [ht]
    have := (C41_base58_encoders net host h a 0 (by omega) (by omega)).2.2 net.pubkeyVersion
    rw [hl] at this; omega
  obtain ⟨mem, m1, m2⟩ := t2 (by
    have mono : ∀ n, n ≤ 36 → fromBase58CheckLength n ≤ 40 := by decide +kernel
    exact Nat.le_trans (mono _ hle) ho)
  rw [hl] at m1 m2
  refine ⟨text, mem, ?_, m1, m2⟩
  rw [ownerAddress, j2, Res.ok_bind, e, Res.ok_bind]
  simp only [Res.pure_eq]
  rw [BtcHash.take_over rfl, ht]
