import Verif.Props.OneKey
import Verif.Props.Repeat
import Verif.Cases.Keys
/-! Applications of the theorems of C117 and of the counting part of C114. -/
open Key SecpLib Secp256k1 WordSpec AddressSpec Address OneKey
namespace Cases

/-- Two different keys with the same key id exist (by counting): their public keys show a collision. -/
example : ∃ key key' : List Byte, key ≠ key' ∧ Shows (pubText key true) (pubText key' true) := by
  obtain ⟨id, hid, keys, inj, h⟩ := C117_violated_keyid true
  have hne : keys ⟨0, by decide⟩ ≠ keys ⟨1, by decide⟩ := fun e => absurd (Fin.mk.inj (inj e)) (by decide)
  refine ⟨_, _, hne, ?_⟩
  rcases C117_keyid_partial false true .little .big _ _ (List.replicate 20 0xAA#8) (List.replicate 21 0x55#8) _ _ true true
    (h ⟨0, by decide⟩).1 (h ⟨1, by decide⟩).1 (by decide) (by decide)
    ((h ⟨0, by decide⟩).2 false .little _ (by decide)) ((h ⟨1, by decide⟩).2 true .big _ (by decide))
    (by rw [Collision.take_over _ hid, Collision.take_over _ hid]) with e | e
  · exact absurd e.1 hne
  · exact e

/-- They have the same witness address on the main network. -/
example : ∃ key key' : List Byte, key ≠ key' ∧ Shows (pubText key true) (pubText key' true) := by
  obtain ⟨id, hid, keys, inj, h⟩ := C117_violated_keyid true
  have hne : keys ⟨0, by decide⟩ ≠ keys ⟨1, by decide⟩ := fun e => absurd (Fin.mk.inj (inj e)) (by decide)
  have ho : over id (List.replicate 20 0xAA#8) = id := by simp [over, hid]
  have hw := Item.write_eq false .little .main (List.replicate 128 0xAA#8) (.witnessKeyhash id) hid (by simp)
  have e0 := (h ⟨0, by decide⟩).2 false .little (List.replicate 20 0xAA#8) (by decide)
  have e1 := (h ⟨1, by decide⟩).2 false .little (List.replicate 20 0xAA#8) (by decide)
  rw [ho] at e0 e1
  have hw : toAddressWitnessV0Keyhash false id 20 (List.replicate 128 0xAA#8) (List.replicate 128 0xAA#8).length Network.main.param =
      .ok (over (Item.text .main (.witnessKeyhash id)) (List.replicate 128 0xAA#8), (Item.text .main (.witnessKeyhash id)).length) := by
    rw [← hid]; exact hw
  refine ⟨_, _, hne, ?_⟩
  obtain ⟨-, -, e | e⟩ := C117_address_partial false false .little .little .main .main _ _ _ _ _ _ (List.replicate 128 0xAA#8)
    (List.replicate 128 0xAA#8) _ _ _ _ true true true true (h ⟨0, by decide⟩).1 (h ⟨1, by decide⟩).1 (by simp) (by simp) (by simp)
    (by simp) e0 e1 hw hw rfl
  · exact absurd e.1 hne
  · exact e

/-- One key, twice: on the main network and on the network for testing its legacy addresses differ, as C117 says. -/
example (key o : List Byte) (ho : o.length = 128) (hv : ValidKey key) : ∃ id r l r' l', keyKeyid false .little key true (List.replicate 20 0xAA#8) = .ok id ∧
    toAddressPubkey .little id 20 o o.length Network.main.param = .ok (r, l) ∧
    toAddressPubkey .little id 20 o o.length Network.test.param = .ok (r', l') ∧
    r.take l ≠ r'.take l' := by
  obtain ⟨-, -, hid, -⟩ := C60_keyids false .little key (List.replicate 20 0xAA#8) (List.replicate 20 0xAA#8) true hv (by simp) (by simp)
  have hl : (over (BtcHashSpec.hash160 (DerSpec.point true (mul (beNat key) G))) (List.replicate 20 0xAA#8)).length = 20 := by
    rw [over_length _ _ (by rw [Collision.hash160_length]; simp)]; simp
  generalize over (BtcHashSpec.hash160 (DerSpec.point true (mul (beNat key) G))) (List.replicate 20 0xAA#8) = id at hid hl
  have w : ∀ net : Network, toAddressPubkey .little id 20 o o.length net.param =
      .ok (over (Item.text net (.pubkeyHash id)) o, (Item.text net (.pubkeyHash id)).length) := by
    intro net
    have := Item.write_eq false .little net o (.pubkeyHash id) hl (by omega)
    rw [← this, ← hl]; rfl
  refine ⟨id, _, _, _, _, hid, w .main, w .test, fun same => ?_⟩
  have := (C117_address_partial false false .little .little .main .test key key _ _ id id _ _ _ _ _ _ true true false false hv hv
    (by simp) (by simp) (by omega) (by omega) hid hid (w .main) (w .test) same).2.1
  exact absurd (this.1 rfl) (by decide)

example : ∃ (fp : BitVec 32) (key key' : List Byte), key ≠ key' ∧ keyFingerprint false .little key true = .ok fp ∧
    keyFingerprint false .little key' true = .ok fp := by
  obtain ⟨fp, keys, inj, h⟩ := C117_violated_fingerprint
  exact ⟨fp, keys ⟨0, by decide⟩, keys ⟨1, by decide⟩, fun e => absurd (Fin.mk.inj (inj e)) (by decide), (h _).2 _ _, (h _).2 _ _⟩

example := C114_violated_repeat (beBytes 32 1) one_valid'

end Cases
