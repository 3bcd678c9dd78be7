import Verif.Model.InPlaceKeys
import Verif.Props.Bip32
/-! Property theorems C79: a child key that replaces its parent. -/
open InPlaceKeys Exkey Key SecpLib Secp256k1 Bip32Spec WordSpec

theorem memcpy_self (p : List Byte) (n : Nat) (h : n ≤ p.length) : memcpy p 0 p n = .ok p := by
  rw [memcpy, if_pos ⟨h, by omega⟩]
  simp

/-- C79 (public keys). `fingera_expubkey_derive` onto the key itself does, for every key (valid or not), index and fingerprint, what
it does with a separate structure that holds a copy of the parent. -/
theorem C79_public_in_place (nd : Bool) (host : Host) (pub : ExPubkey) (child fp : U32) :
    expubkeyDeriveSelf nd host pub child fp = expubkeyDerive nd host pub pub child fp := by
  have h : pubkeyDeriveSelf nd host pub.pubkey pub.ext.chainCode child =
      pubkeyDerive nd host pub.pubkey pub.ext.chainCode pub.pubkey pub.ext.chainCode child := by
    unfold pubkeyDeriveSelf pubkeyDerive
    cases ht : rd pub.pubkey 0 with
    | ok t => rfl
    | ub => rfl
    | abort => rfl
  unfold expubkeyDeriveSelf expubkeyDerive
  rw [h]

/-- C79 (public keys, in terms of BIP 32). For every point, chain code, index below 2^31 and fingerprint: the structure holds the
child of BIP 32, or there is none, the call reports it, and the parent's chain code is lost (its public key is not). -/
theorem C79_public_in_place_bip32 (nd : Bool) (host : Host) (ext : Ext) (x y : Nat) (child fp : U32)
    (hon : OnCurve (some (x, y))) (hc : ext.chainCode.length = 32) (hi : child.toNat < 2 ^ 31) :
    expubkeyDeriveSelf nd host ⟨ext, compressed x y⟩ child fp = .ok
      (match ckdPub (some (x, y)) ext.chainCode child with
      | some (K, c) => (⟨⟨ext.depth + 1#8, fp, child, over c ext.chainCode⟩, over (serP K) (compressed x y)⟩, true)
      | none => (⟨{ ext with chainCode := (pubI (some (x, y)) ext.chainCode child).drop 32 }, compressed x y⟩, false)) := by
  rw [C79_public_in_place]
  exact C52_expubkey_derive nd host ext x y ⟨ext, compressed x y⟩ child fp hon hc hi ⟨compressed_length x y, hc⟩

theorem keyDeriveSelf_eq (nd : Bool) (host : Host) (key chain : List Byte) (child : U32) (h : 32 ≤ key.length) :
    keyDeriveSelf false nd host key chain child = keyDerive nd host key chain key chain child := by
  unfold keyDeriveSelf keyDerive
  rw [memcpy_self key 32 h, show selfCopy false key 32 = .ok key from memcpy_self key 32 h]

/-- C79 (private keys) where `memcpy` onto the same place changes nothing: as with a separate structure. Missing: C itself does not
promise that (`C79_violated_overlapping_memcpy`). -/
theorem C79_private_in_place_partial (nd : Bool) (host : Host) (key : ExKey) (child fp : U32) (h : 32 ≤ key.key.length) :
    exkeyDeriveSelf false nd host key child fp = exkeyDerive nd host key key child fp := by
  unfold exkeyDeriveSelf exkeyDerive
  rw [keyDeriveSelf_eq nd host _ _ child h]

/-- C79 (private keys, in terms of BIP 32), under the same assumption: the structure holds the child of BIP 32, or there is none, the
call reports it, and the parent is lost: 32 zero bytes and another chain code are in its place. -/
theorem C79_private_in_place_bip32_partial (nd : Bool) (host : Host) (key : ExKey) (child fp : U32) (hk : WfPriv key) :
    exkeyDeriveSelf false nd host key child fp = .ok
      (match ckdPriv (beNat key.key) key.ext.chainCode child with
      | some (k, c) => (⟨⟨key.ext.depth + 1#8, fp, child, c⟩, ser256 k⟩, true)
      | none => (⟨{ key.ext with chainCode := (privI (beNat key.key) key.ext.chainCode child).drop 32 },
          List.replicate 32 0#8⟩, false)) := by
  have hl : key.key.length = 32 := hk.1.1
  rw [C79_private_in_place_partial nd host key child fp (by omega)]
  exact C52_exkey_derive nd host key key child fp hk ⟨hl, hk.2⟩

/-- C79 (paths), under the same assumption: deriving along a path of any length onto one structure gives the same key as with a second
one, and fails if and only if that fails. -/
theorem C79_paths_in_place_partial (nd : Bool) (host : Host) (buf : ExKey) (hb : BufPriv buf) (path : List (U32 × U32)) (key : ExKey)
    (hk : WfPriv key) :
    (∀ ckey, pathSelf false nd host key path = .ok (ckey, true) ↔ privPath nd host buf key path = .ok (ckey, true)) ∧
    ((∃ m, pathSelf false nd host key path = .ok (m, false)) ↔ ∃ m, privPath nd host buf key path = .ok (m, false)) := by
  induction path generalizing key with
  | nil => exact ⟨fun ckey => Iff.rfl, Iff.rfl⟩
  | cons s path ih =>
    obtain ⟨child, fp⟩ := s
    rw [pathSelf, privPath, C79_private_in_place_bip32_partial nd host key child fp hk,
      C52_exkey_derive nd host key buf child fp hk hb, Res.ok_bind, Res.ok_bind]
    cases h : ckdPriv (beNat key.key) key.ext.chainCode child with
    | none =>
      simp only [Bool.false_eq_true, if_false, Res.pure_eq, Res.ok.injEq, Prod.mk.injEq, and_false, and_true, exists_eq', implies_true,
        and_self]
    | some kc =>
      obtain ⟨k, c⟩ := kc
      obtain ⟨s1, s2, s3⟩ := ckdPriv_some h
      simp only [if_true]
      exact ih _ ⟨(ser256_valid s1 s2).1, s3⟩

/-- C79 (private keys) does not hold by the letter of C: for every valid key, index and fingerprint the call copies a region onto
itself with `memcpy`. -/
theorem C79_violated_overlapping_memcpy (nd : Bool) (host : Host) (key : ExKey) (child fp : U32) (hk : WfPriv key) :
    exkeyDeriveSelf true nd host key child fp = .ub := by
  have h := deriveHash_eq nd host key.key key.ext.chainCode child hk.1 (by rw [hk.2])
  unfold exkeyDeriveSelf keyDeriveSelf
  rw [h]
  rfl

/-- `m/0'` of test vector 1 of BIP 32, derived onto `m`. -/
example : exkeyDeriveSelf false false .little ⟨⟨0#8, 0#32, 0#32, vector1Chain⟩, vector1Key⟩ 0x80000000#32 0x57c24334#32 =
    .ok (⟨⟨1#8, 0x57c24334#32, 0x80000000#32, vector1Chain0H⟩, vector1Key0H⟩, true) := by decide +kernel
