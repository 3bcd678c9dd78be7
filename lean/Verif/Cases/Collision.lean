import Verif.Props.Collision
import Verif.Cases.Texts
/-! Concrete cases for C113. (No pair of different texts with the same digest is known: the cases of the positive theorems are two calls on equal texts in
different memory, and the violations are run as such.) -/
open Sha2Spec
namespace Cases

example : ∃ r r', BtcHash.hash256 .little (aa 70) 65 (aa 40) = .ok r ∧ BtcHash.hash256 .big (aa 66) 65 (aa 32) = .ok r' ∧ r.take 32 = r'.take 32 ∧
    ((aa 70).take 65 = (aa 66).take 65 ∨ Collide SHA256 ((aa 70).take 65) ((aa 66).take 65) ∨
      Collide SHA256 (SHA256 ((aa 70).take 65)) (SHA256 ((aa 66).take 65))) := by
  have h := (C32_compositions .little (aa 70) 65 (aa 40) (by decide) (by decide) (by decide)).2
  have h' := (C32_compositions .big (aa 66) 65 (aa 32) (by decide) (by decide) (by decide)).2
  have e : (aa 70).take 65 = (aa 66).take 65 := by decide
  have same : (over (SHA256 (SHA256 ((aa 70).take 65))) (aa 40)).take 32 = (over (SHA256 (SHA256 ((aa 66).take 65))) (aa 32)).take 32 := by
    rw [Collision.take_over _ (Sha2.SHA256_length _), Collision.take_over _ (Sha2.SHA256_length _), e]
  exact ⟨_, _, h, h', same, C113_hash256 .little .big _ _ _ _ _ _ 65 65 (by decide) (by decide) (by decide) (by decide) (by decide) (by decide) h h' same⟩

example : ∃ r r', BtcHash.hash160 .little (aa 70) 33 (aa 20) = .ok r ∧ BtcHash.hash160 .big (aa 33) 33 (aa 32) = .ok r' ∧ r.take 20 = r'.take 20 ∧
    ((aa 70).take 33 = (aa 33).take 33 ∨ Collide SHA256 ((aa 70).take 33) ((aa 33).take 33) ∨
      Collide RipemdSpec.RIPEMD160 (SHA256 ((aa 70).take 33)) (SHA256 ((aa 33).take 33))) := by
  have h := BtcHash.hash160_eq .little (aa 70) 33 (aa 20) (by decide) (by decide) (by decide)
  have h' := BtcHash.hash160_eq .big (aa 33) 33 (aa 32) (by decide) (by decide) (by decide)
  have e : (aa 70).take 33 = (aa 33).take 33 := by decide
  refine ⟨_, _, h, h', ?_, C113_hash160 .little .big _ _ _ _ _ _ 33 33 (by decide) (by decide) (by decide) (by decide) (by decide) (by decide) h h' ?_⟩ <;>
    rw [Collision.take_over _ (Collision.hash160_length _), Collision.take_over _ (Collision.hash160_length _), e]

/-- Keys `aa…` of 5 bytes and the same with a zero byte behind it: the same MAC. -/
example : ∃ r r', Sha2.hmac_sha256 .little (aa 5) 5 (aa 9) 7 (aa 32) = .ok r ∧ Sha2.hmac_sha256 .little ((aa 5).take 5 ++ List.replicate 1 0#8) 6 (aa 9) 7 (aa 32) = .ok r' ∧
    r.take 32 = r'.take 32 := by
  have h := C29_hmac_sha256 .little (aa 5) 5 (aa 9) 7 (aa 32) (by decide) (by decide) (by decide) (by decide) (by decide)
  have h' := C113_violated_hmac_zeros .little (aa 5) (aa 9) (aa 32) 5 7 1 (by decide) (by decide) (by decide) (by decide) (by decide)
  have hh := h'.trans h
  have := C113_hmac_sha256 .little .little (aa 5) ((aa 5).take 5 ++ List.replicate 1 0#8) (aa 9) (aa 9) (aa 32) (aa 32) _ _ 5 6 7 7 (by decide) (by decide)
    (by decide) (by decide) (by decide) (by decide) (by decide) (by decide) (by decide) (by decide) h hh rfl
  exact ⟨_, _, h, hh, rfl⟩

example := C113_violated_hmac_digest .little (aa 100) (aa 9) (aa 32) 90 7 (by decide) (by decide) (by decide) (by decide) (by decide) (by decide)

example : ∃ r, Sha2.hmac_sha512 .little (aa 5) 5 (aa 9) 7 (aa 64) = .ok r := by
  have h := C30_hmac_sha512 .little (aa 5) 5 (aa 9) 7 (aa 64) (by decide) (by decide) (by decide) (by decide) (by decide)
  have := C113_hmac_sha512 .little .little (aa 5) (aa 5) (aa 9) (aa 9) (aa 64) (aa 64) _ _ 5 5 7 7 (by decide) (by decide)
    (by decide) (by decide) (by decide) (by decide) (by decide) (by decide) (by decide) (by decide) h h rfl
  exact ⟨_, h⟩

example : ∃ r, BtcHash.bip32_hash .little (aa 32) 5#32 2#8 (aa 32) (aa 64) = .ok r := by
  have h := C32_bip32_hash .little (aa 32) 5#32 2#8 (aa 32) (aa 64) (by decide) (by decide) (by decide)
  have := C113_bip32_hash .little .little (aa 32) (aa 32) (aa 32) (aa 32) (aa 64) (aa 64) _ _ 5#32 5#32 2#8 2#8 (by decide) (by decide)
    (by decide) (by decide) (by decide) (by decide) h h rfl
  exact ⟨_, h⟩

def leaves3 : List (List Byte) := [List.replicate 32 1#8, List.replicate 32 2#8, List.replicate 32 3#8]

example : ∃ mem, Merkle.merkle .little (leaves3.flatten ++ aa 32) leaves3.length = .ok mem := by
  obtain ⟨mem, h, -⟩ := C104_merkle_root .little leaves3 (aa 32) 2 (by simp [leaves3]) (by decide) (by decide) (by decide)
  have := C113_merkle_partial .little .little leaves3 leaves3 (aa 32) (aa 32) mem mem (by simp [leaves3]) (by simp [leaves3]) 2 (by decide) (by decide) rfl
    (by decide) h h rfl
  exact ⟨mem, h⟩

/-- Three leaves, and the same with the last one repeated: the same height, the same hashes at the bottom. -/
example : ∃ mem mem', Merkle.merkle .little (leaves3.flatten ++ aa 32) leaves3.length = .ok mem ∧
    Merkle.merkle .little ((leaves3 ++ [List.replicate 32 3#8]).flatten ++ aa 32) 4 = .ok mem' ∧ mem.take 32 = mem'.take 32 := by
  obtain ⟨mem, mem', h, h', same⟩ := C113_violated_merkle_length .little leaves3 (aa 32) (by decide) (by simp [leaves3]) (by decide) (by decide) (by decide)
  have := C113_merkle_same_height_partial .little .little leaves3 (leaves3 ++ [List.replicate 32 3#8]) (aa 32) (aa 32) mem mem' (by simp [leaves3])
    (by simp [leaves3]) 2 (by decide) (by decide) (by decide) (by decide) (by decide) (by decide) h h' same
  exact ⟨mem, mem', h, h', same⟩
example : ∃ mem, Merkle.merkle .little (leaves3.flatten ++ aa 32) leaves3.length = .ok mem := by
  obtain ⟨mem, h, -⟩ := C104_merkle_root .little leaves3 (aa 32) 2 (by simp [leaves3]) (by decide) (by decide) (by decide)
  have := C113_merkle_distinct_partial .little .little leaves3 leaves3 (aa 32) (aa 32) mem mem (by simp [leaves3]) (by simp [leaves3]) 2 (by decide)
    (by decide) (by decide) (by decide) (by decide) (by decide) (by decide) (by decide) h h rfl
  exact ⟨mem, h⟩
example := C113_violated_merkle_height .little (List.replicate 32 1#8) (List.replicate 32 2#8) (List.replicate 32 3#8) (List.replicate 32 4#8) []
  (by simp) (by simp) (by simp) (by simp)

example := C113_violated_merkle_length .little leaves3 (aa 32) (by decide) (by simp [leaves3]) (by decide) (by decide) (by decide)

end Cases
