import Verif.Spec.Siblings
import Verif.Props.Collision
import Verif.Props.Bip32
/-! Property theorems C118: the children of an extended key are different (`src/btc/key.c`, `src/btc/exkey.c`). -/
open Key SecpLib Secp256k1 WordSpec Bip32Spec Exkey

namespace Siblings

theorem privI_text (k : Nat) (c : List Byte) (i : U32) : privI k c i = hmac c (privText k i) := by
  rw [privI, privText]; split <;> rfl

theorem ser32_inj {i j : U32} (h : ser32 i = ser32 j) : i = j :=
  BitVec.eq_of_toNat_eq (beBytes_inj 4 _ _ (by have := i.isLt; omega) (by have := j.isLt; omega) h)

theorem tail_inj {a b : List Byte} {i j : U32} (h : a ++ ser32 i = b ++ ser32 j) : i = j := by
  have hl := congrArg List.length h
  have e1 : (ser32 i).length = 4 := Endian.beBytes_length ..
  have e2 : (ser32 j).length = 4 := Endian.beBytes_length ..
  rw [List.length_append, List.length_append, e1, e2] at hl
  exact ser32_inj (List.append_inj h (by omega)).2

theorem hmac_peel {c a b : List Byte} (h : hmac c a = hmac c b) : a = b ∨ Shows c a b := by
  rcases Collision.hmac_binds (fun m => by rw [Sha2.SHA512_length]; decide) h with h | h | h
  · exact .inl h.2
  · exact .inr (.inl h)
  · exact .inr (.inr h)

theorem parse_inj {I J : List Byte} (hI : I.length = 64) (hJ : J.length = 64) (h : parse256 (I.take 32) = parse256 (J.take 32)) :
    I.take 32 = J.take 32 := by
  have e : ∀ {I : List Byte}, I.length = 64 → (I.take 32).length = 32 := fun h => by rw [List.length_take, h]; rfl
  rw [← beBytes_beNat_of_length _ 32 (e hI), ← beBytes_beNat_of_length _ 32 (e hJ)]
  exact congrArg _ h

theorem mod_cancel {a b k : Nat} (ha : a < n) (hb : b < n) (h : (a + k) % n = (b + k) % n) : a = b := by
  have := Nat.ModEq.add_right_cancel' k h
  rw [← Nat.mod_eq_of_lt ha, ← Nat.mod_eq_of_lt hb]; exact this

theorem priv_child {k k' : Nat} {c c' : List Byte} {i : U32} (h : ckdPriv k c i = some (k', c')) :
    parse256 ((privI k c i).take 32) < n ∧ k' = (parse256 ((privI k c i).take 32) + k) % n ∧ 0 < k' ∧ k' < n ∧ c' = (privI k c i).drop 32 := by
  rw [ckdPriv] at h
  split at h
  · cases h
  · rename_i hn
    rw [not_or] at hn
    obtain ⟨e1, e2⟩ := Prod.mk.inj (Option.some.inj h)
    exact ⟨Nat.lt_of_not_le hn.1, e1.symm, by rw [← e1]; exact Nat.pos_of_ne_zero hn.2, by rw [← e1]; exact Nat.mod_lt _ n_pos, e2.symm⟩

theorem pub_child {K K' : Pt} {c c' : List Byte} {i : U32} (h : ckdPub K c i = some (K', c')) :
    parse256 ((pubI K c i).take 32) < n ∧ K' = add (mul (parse256 ((pubI K c i).take 32)) G) K ∧ K' ≠ none ∧ c' = (pubI K c i).drop 32 := by
  rw [ckdPub] at h
  split at h
  · cases h
  · rename_i hn
    rw [not_or] at hn
    obtain ⟨e1, e2⟩ := Prod.mk.inj (Option.some.inj h)
    exact ⟨Nat.lt_of_not_le hn.1, e1.symm, by rw [← e1]; exact hn.2, e2.symm⟩

/-- What a successful derivation returned. -/
theorem derived {nd : Bool} {host : Host} {key der d : ExKey} {i fp : U32} (hk : WfPriv key) (hd : BufPriv der)
    (h : exkeyDerive nd host key der i fp = .ok (d, true)) :
    ∃ k, ckdPriv (beNat key.key) key.ext.chainCode i = some (k, d.ext.chainCode) ∧ d.key = ser256 k := by
  rw [C52_exkey_derive nd host key der i fp hk hd] at h
  have h := Res.ok.inj h
  cases hc : ckdPriv (beNat key.key) key.ext.chainCode i with
  | none => rw [hc] at h; cases h
  | some kc => rw [hc] at h; cases h; exact ⟨kc.1, rfl, rfl⟩

theorem pderived {nd : Bool} {host : Host} {ext : Ext} {x y : Nat} {der d : ExPubkey} {i fp : U32} (hon : OnCurve (some (x, y)))
    (hc : ext.chainCode.length = 32) (hi : i.toNat < 2 ^ 31) (hd : BufPub der)
    (h : expubkeyDerive nd host ⟨ext, compressed x y⟩ der i fp = .ok (d, true)) :
    ∃ K, ckdPub (some (x, y)) ext.chainCode i = some (K, d.ext.chainCode) ∧ d.pubkey = serP K := by
  rw [C52_expubkey_derive nd host ext x y der i fp hon hc hi hd] at h
  have h := Res.ok.inj h
  cases hc : ckdPub (some (x, y)) ext.chainCode i with
  | none => rw [hc] at h; cases h
  | some kc =>
    obtain ⟨K, c⟩ := kc
    rw [hc] at h
    obtain ⟨-, -, hK, hcc⟩ := pub_child hc
    have h := (Prod.mk.inj h).1
    have hlc : c.length = der.ext.chainCode.length := by rw [hcc, List.length_drop, pubI_length, hd.2]
    have hlK : (serP K).length = der.pubkey.length := by
      match K, hK with
      | some (a, b), _ => rw [hd.1]; exact compressed_length a b
    simp only [over_all hlc, over_all hlK] at h
    rw [← h]
    exact ⟨K, rfl, rfl⟩

theorem serP_inj {K K' : Pt} (h1 : OnCurve K) (h2 : OnCurve K') (n1 : K ≠ none) (n2 : K' ≠ none) (h : serP K = serP K') : K = K' := by
  match K, K', n1, n2 with
  | some (x, y), some (x', y'), _, _ => exact congrArg some (compressed_inj h1 h2 h)

theorem add_right {a b : Nat} {K : Pt} (ha : a < n) (hb : b < n) (hK : OnCurve K) (h : add (mul a G) K = add (mul b G) K) : a = b := by
  obtain ⟨o1, e1⟩ := mul_spec (lt_trans ha n_lt) G_onCurve
  obtain ⟨o2, e2⟩ := mul_spec (lt_trans hb n_lt) G_onCurve
  have := congrArg toPoint h
  rw [(add_spec o1 hK).2, (add_spec o2 hK).2] at this
  exact mul_G_inj ha hb (toPoint_inj o1 o2 (add_right_cancel this))

end Siblings

open Siblings

/-- C118 (same key, exactly). Two children of one extended private key have the same key exactly if the left halves of the two HMACs are the same. -/
theorem C118_same_key (nd nd' : Bool) (host host' : Host) (key der der' d d' : ExKey) (i i' fp fp' : U32) (hk : WfPriv key) (hd : BufPriv der)
    (hd' : BufPriv der') (h : exkeyDerive nd host key der i fp = .ok (d, true)) (h' : exkeyDerive nd' host' key der' i' fp' = .ok (d', true)) :
    d.key = d'.key ↔ (hmac key.ext.chainCode (privText (beNat key.key) i)).take 32 = (hmac key.ext.chainCode (privText (beNat key.key) i')).take 32 := by
  obtain ⟨k, hc, e⟩ := derived hk hd h
  obtain ⟨k', hc', e'⟩ := derived hk hd' h'
  obtain ⟨a1, a2, -, a3, -⟩ := priv_child hc
  obtain ⟨b1, b2, -, b3, -⟩ := priv_child hc'
  rw [e, e', ← privI_text, ← privI_text]
  constructor
  · intro hs
    have hs := beBytes_inj 32 _ _ (lt_trans a3 n_lt256) (lt_trans b3 n_lt256) hs
    rw [a2, b2] at hs
    exact parse_inj (privI_length ..) (privI_length ..) (mod_cancel a1 b1 hs)
  · intro hs
    rw [a2, b2, hs]

/-- C118 (private). Two children of one extended private key with the same key and chain code have the same index, or the HMACs of the two
derivations show a collision of SHA-512. -/
theorem C118_siblings_partial (nd nd' : Bool) (host host' : Host) (key der der' d d' : ExKey) (i i' fp fp' : U32) (hk : WfPriv key)
    (hd : BufPriv der) (hd' : BufPriv der') (h : exkeyDerive nd host key der i fp = .ok (d, true))
    (h' : exkeyDerive nd' host' key der' i' fp' = .ok (d', true)) (sameKey : d.key = d'.key) (sameChain : d.ext.chainCode = d'.ext.chainCode) :
    i = i' ∨ Shows key.ext.chainCode (privText (beNat key.key) i) (privText (beNat key.key) i') := by
  have hl := (C118_same_key nd nd' host host' key der der' d d' i i' fp fp' hk hd hd' h h').1 sameKey
  obtain ⟨k, hc, -⟩ := derived hk hd h
  obtain ⟨k', hc', -⟩ := derived hk hd' h'
  have a := (priv_child hc).2.2.2.2
  have b := (priv_child hc').2.2.2.2
  rw [privI_text] at a b
  rw [a, b] at sameChain
  have := congrArg₂ (· ++ ·) hl sameChain
  simp only [List.take_append_drop] at this
  rcases hmac_peel this with e | e
  · exact .inl (tail_inj e)
  · exact .inr e

/-- C118 (public, same key, exactly). -/
theorem C118_same_pubkey (nd nd' : Bool) (host host' : Host) (ext : Ext) (x y : Nat) (der der' d d' : ExPubkey) (i i' fp fp' : U32)
    (hon : OnCurve (some (x, y))) (hc : ext.chainCode.length = 32) (hi : i.toNat < 2 ^ 31) (hi' : i'.toNat < 2 ^ 31) (hd : BufPub der) (hd' : BufPub der')
    (h : expubkeyDerive nd host ⟨ext, compressed x y⟩ der i fp = .ok (d, true))
    (h' : expubkeyDerive nd' host' ⟨ext, compressed x y⟩ der' i' fp' = .ok (d', true)) :
    d.pubkey = d'.pubkey ↔
      (hmac ext.chainCode (Siblings.pubText (some (x, y)) i)).take 32 = (hmac ext.chainCode (Siblings.pubText (some (x, y)) i')).take 32 := by
  obtain ⟨K, hc1, e⟩ := pderived hon hc hi hd h
  obtain ⟨K', hc2, e'⟩ := pderived hon hc hi' hd' h'
  obtain ⟨a1, a2, a3, -⟩ := pub_child hc1
  obtain ⟨b1, b2, b3, -⟩ := pub_child hc2
  rw [e, e']
  show _ ↔ (pubI (some (x, y)) ext.chainCode i).take 32 = (pubI (some (x, y)) ext.chainCode i').take 32
  constructor
  · intro hs
    have o : ∀ {a : Nat}, a < n → OnCurve (add (mul a G) (some (x, y))) := fun ha => (add_spec (mul_spec (lt_trans ha n_lt) G_onCurve).1 hon).1
    have hs := serP_inj (a2 ▸ o a1) (b2 ▸ o b1) a3 b3 hs
    rw [a2, b2] at hs
    exact parse_inj (pubI_length ..) (pubI_length ..) (add_right a1 b1 hon hs)
  · intro hs
    rw [a2, b2, hs]

/-- C118 (public). -/
theorem C118_public_siblings_partial (nd nd' : Bool) (host host' : Host) (ext : Ext) (x y : Nat) (der der' d d' : ExPubkey) (i i' fp fp' : U32)
    (hon : OnCurve (some (x, y))) (hc : ext.chainCode.length = 32) (hi : i.toNat < 2 ^ 31) (hi' : i'.toNat < 2 ^ 31) (hd : BufPub der) (hd' : BufPub der')
    (h : expubkeyDerive nd host ⟨ext, compressed x y⟩ der i fp = .ok (d, true))
    (h' : expubkeyDerive nd' host' ⟨ext, compressed x y⟩ der' i' fp' = .ok (d', true))
    (sameKey : d.pubkey = d'.pubkey) (sameChain : d.ext.chainCode = d'.ext.chainCode) :
    i = i' ∨ Shows ext.chainCode (Siblings.pubText (some (x, y)) i) (Siblings.pubText (some (x, y)) i') := by
  have hl := (C118_same_pubkey nd nd' host host' ext x y der der' d d' i i' fp fp' hon hc hi hi' hd hd' h h').1 sameKey
  obtain ⟨K, hc1, -⟩ := pderived hon hc hi hd h
  obtain ⟨K', hc2, -⟩ := pderived hon hc hi' hd' h'
  have a : _ = (hmac ext.chainCode (Siblings.pubText (some (x, y)) i)).drop 32 := (pub_child hc1).2.2.2
  have b : _ = (hmac ext.chainCode (Siblings.pubText (some (x, y)) i')).drop 32 := (pub_child hc2).2.2.2
  rw [a, b] at sameChain
  have := congrArg₂ (· ++ ·) hl sameChain
  simp only [List.take_append_drop] at this
  rcases hmac_peel this with e | e
  · exact .inl (tail_inj e)
  · exact .inr e

/-- C118 (no child is its parent). A child has its parent's key exactly if the left half of the HMAC consists of zero bytes. -/
theorem C118_parent (nd : Bool) (host : Host) (key der d : ExKey) (i fp : U32) (hk : WfPriv key) (hd : BufPriv der)
    (h : exkeyDerive nd host key der i fp = .ok (d, true)) :
    d.key = key.key ↔ (hmac key.ext.chainCode (privText (beNat key.key) i)).take 32 = List.replicate 32 0#8 := by
  obtain ⟨k, hc, e⟩ := derived hk hd h
  obtain ⟨a1, a2, -, a3, -⟩ := priv_child hc
  have hkey : key.key = ser256 (beNat key.key) := (beBytes_beNat_of_length key.key 32 hk.1.1).symm
  have hlen : ((privI (beNat key.key) key.ext.chainCode i).take 32).length = 32 := by rw [List.length_take, privI_length]; rfl
  rw [e, ← privI_text]
  constructor
  · intro hs
    rw [hkey] at hs
    have hs := beBytes_inj 32 _ _ (lt_trans a3 n_lt256) (lt_trans hk.1.2.2 n_lt256) hs
    have h0 : parse256 ((privI (beNat key.key) key.ext.chainCode i).take 32) = 0 := by
      refine mod_cancel (k := beNat key.key) a1 n_pos ?_
      rw [← a2, hs, Nat.zero_add, Nat.mod_eq_of_lt hk.1.2.2]
    rw [← beBytes_beNat_of_length _ 32 hlen, ← beBytes_zero]
    exact congrArg _ h0
  · intro hs
    have h0 : parse256 ((privI (beNat key.key) key.ext.chainCode i).take 32) = 0 := by
      rw [hs, ← beBytes_zero]; exact beNat_beBytes_lt 32 0 (by decide)
    rw [h0, Nat.zero_add, Nat.mod_eq_of_lt hk.1.2.2] at a2
    rw [a2]; exact hkey.symm
