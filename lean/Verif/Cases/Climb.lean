import Verif.Props.Climb
import Verif.Cases.Keys
/-! Concrete cases for C112: a key whose secret is 1, and its child 5. -/
open Key Exkey SecpLib Secp256k1 WordSpec Bip32Spec
namespace Cases

def e1 : ExKey := ⟨⟨0#8, 0#32, 0#32, vector1Chain⟩, List.replicate 31 0#8 ++ [1#8]⟩
theorem e1_wf : WfPriv e1 := by rw [WfPriv]; decide +kernel

theorem e1_child : (ckdPriv (beNat e1.key) e1.ext.chainCode 5#32).isSome := by decide +kernel

theorem e1_derive : ∃ ckey, exkeyDerive false .little e1 kb 5#32 7#32 = .ok (ckey, true) := by
  rw [C52_exkey_derive false .little e1 kb 5#32 7#32 e1_wf kb_buf]
  have h := e1_child
  cases hc : ckdPriv (beNat e1.key) e1.ext.chainCode 5#32 with
  | none => rw [hc] at h; cases h
  | some kc => exact ⟨_, rfl⟩

example : ∃ ckey pub, exkeyDerive false .little e1 kb 5#32 7#32 = .ok (ckey, true) ∧ exkeyGetPub false e1 pb = .ok pub ∧
    ser256 ((beNat ckey.key + (n - beNat ((Bip32Spec.hmac pub.ext.chainCode (pub.pubkey ++ ser32 5#32)).take 32))) % n) = e1.key := by
  obtain ⟨ckey, h⟩ := e1_derive
  obtain ⟨pub, h1, h2⟩ := C112_violated_parent false .little kb pb e1 ckey 5#32 7#32 kb_buf pb_buf e1_wf (by decide) h
  exact ⟨ckey, pub, h, h1, h2⟩

example : ∃ (ckey : ExKey) (x y : Nat), exkeyGetPub false e1 pb = .ok ⟨e1.ext, compressed x y⟩ ∧
    ser256 (climb (some (x, y)) e1.ext.chainCode [5#32] (beNat ckey.key)) = e1.key := by
  obtain ⟨ckey, h⟩ := e1_derive
  exact ⟨ckey, C112_violated_ancestor false .little kb pb [(5#32, 7#32)] e1 ckey kb_buf pb_buf e1_wf (by decide) (by rw [privPath, h]; rfl)⟩

end Cases
