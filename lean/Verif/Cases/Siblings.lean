import Verif.Props.Siblings
import Verif.Cases.Climb
/-! Concrete cases for C118: children 5 and 6 of a key whose secret is 1. -/
open Key Exkey SecpLib Secp256k1 WordSpec Bip32Spec Siblings
namespace Cases

theorem e1_derive_of (i fp : U32) (h : (ckdPriv (beNat e1.key) e1.ext.chainCode i).isSome) :
    ∃ ckey, exkeyDerive false .little e1 kb i fp = .ok (ckey, true) := by
  rw [C52_exkey_derive false .little e1 kb i fp e1_wf kb_buf]
  cases hc : ckdPriv (beNat e1.key) e1.ext.chainCode i with
  | none => rw [hc] at h; cases h
  | some kc => exact ⟨_, rfl⟩

theorem e1_child6 : (ckdPriv (beNat e1.key) e1.ext.chainCode 6#32).isSome := by decide +kernel

/-- The children 5 and 6 have the same key exactly if two HMACs have the same left half. -/
example : ∃ d d', exkeyDerive false .little e1 kb 5#32 7#32 = .ok (d, true) ∧ exkeyDerive false .little e1 kb 6#32 7#32 = .ok (d', true) ∧
    (d.key = d'.key ↔ (hmac e1.ext.chainCode (privText (beNat e1.key) 5#32)).take 32 = (hmac e1.ext.chainCode (privText (beNat e1.key) 6#32)).take 32) := by
  obtain ⟨d, h⟩ := e1_derive_of 5#32 7#32 e1_child
  obtain ⟨d', h'⟩ := e1_derive_of 6#32 7#32 e1_child6
  exact ⟨d, d', h, h', C118_same_key false false .little .little e1 kb kb d d' 5#32 6#32 7#32 7#32 e1_wf kb_buf kb_buf h h'⟩

/-- The same child twice, for different fingerprints, has one key and chain code; that of another index only with a collision. -/
example : ∃ d d', exkeyDerive false .little e1 kb 5#32 7#32 = .ok (d, true) ∧ exkeyDerive false .little e1 kb 6#32 7#32 = .ok (d', true) ∧
    (d.key = d'.key → d.ext.chainCode = d'.ext.chainCode → Siblings.Shows e1.ext.chainCode (privText 1 5#32) (privText 1 6#32)) := by
  obtain ⟨d, h⟩ := e1_derive_of 5#32 7#32 e1_child
  obtain ⟨d', h'⟩ := e1_derive_of 6#32 7#32 e1_child6
  refine ⟨d, d', h, h', fun a b => ?_⟩
  have := C118_siblings_partial false false .little .little e1 kb kb d d' 5#32 6#32 7#32 7#32 e1_wf kb_buf kb_buf h h' a b
  exact this.resolve_left (by decide)

/-- All hypotheses hold together where the two children are one. -/
example : ∃ d d', exkeyDerive false .little e1 kb 5#32 7#32 = .ok (d, true) ∧ exkeyDerive false .little e1 kb 5#32 8#32 = .ok (d', true) ∧
    d ≠ d' ∧ d.key = d'.key ∧ d.ext.chainCode = d'.ext.chainCode := by
  rw [C52_exkey_derive false .little e1 kb 5#32 7#32 e1_wf kb_buf, C52_exkey_derive false .little e1 kb 5#32 8#32 e1_wf kb_buf]
  have h := e1_child
  cases hc : ckdPriv (beNat e1.key) e1.ext.chainCode 5#32 with
  | none => rw [hc] at h; cases h
  | some kc => exact ⟨_, _, rfl, rfl, fun e => absurd (congrArg (fun k : ExKey => k.ext.fingerprint) e) (by show ¬ (7#32 = 8#32); decide), rfl, rfl⟩

/-- The public key of 1 is the base point; its children 5 and 6. -/
theorem g_derive_of (i fp : U32) (hi : i.toNat < 2 ^ 31) (h : (ckdPriv (beNat e1.key) e1.ext.chainCode i).isSome) :
    ∃ d, expubkeyDerive false .little ⟨e1.ext, compressed gx gy⟩ pb i fp = .ok (d, true) := by
  rw [C52_expubkey_derive false .little e1.ext gx gy pb i fp g_on e1_wf.2 hi pb_buf]
  have hm : mul (beNat e1.key) G = some (gx, gy) := by decide +kernel
  have hcm := ckd_commute (beNat e1.key) e1.ext.chainCode i e1_wf.1.2.2 hi
  rw [hm] at hcm
  rw [hcm]
  cases hc : ckdPriv (beNat e1.key) e1.ext.chainCode i with
  | none => rw [hc] at h; cases h
  | some kc => exact ⟨_, rfl⟩

example : ∃ d d', expubkeyDerive false .little ⟨e1.ext, compressed gx gy⟩ pb 5#32 7#32 = .ok (d, true) ∧
    expubkeyDerive false .little ⟨e1.ext, compressed gx gy⟩ pb 6#32 7#32 = .ok (d', true) ∧
    (d.pubkey = d'.pubkey ↔ (hmac e1.ext.chainCode (Siblings.pubText (some (gx, gy)) 5#32)).take 32 =
      (hmac e1.ext.chainCode (Siblings.pubText (some (gx, gy)) 6#32)).take 32) ∧
    (d.pubkey = d'.pubkey → d.ext.chainCode = d'.ext.chainCode → (5#32 : U32) = 6#32 ∨
      Siblings.Shows e1.ext.chainCode (Siblings.pubText (some (gx, gy)) 5#32) (Siblings.pubText (some (gx, gy)) 6#32)) := by
  obtain ⟨d, h⟩ := g_derive_of 5#32 7#32 (by decide) e1_child
  obtain ⟨d', h'⟩ := g_derive_of 6#32 7#32 (by decide) e1_child6
  exact ⟨d, d', h, h', C118_same_pubkey false false .little .little e1.ext gx gy pb pb d d' 5#32 6#32 7#32 7#32 g_on e1_wf.2
    (by decide) (by decide) pb_buf pb_buf h h', C118_public_siblings_partial false false .little .little e1.ext gx gy pb pb d d' 5#32 6#32 7#32 7#32
    g_on e1_wf.2 (by decide) (by decide) pb_buf pb_buf h h'⟩

/-- The child 5 is not its parent. -/
example : ∃ d, exkeyDerive false .little e1 kb 5#32 7#32 = .ok (d, true) ∧ d.key ≠ e1.key := by
  obtain ⟨d, h⟩ := e1_derive_of 5#32 7#32 e1_child
  exact ⟨d, h, fun e => absurd ((C118_parent false .little e1 kb d 5#32 7#32 e1_wf kb_buf h).1 e) (by decide +kernel)⟩

end Cases
