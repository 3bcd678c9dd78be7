import Verif.Spec.OneKey
import Verif.Props.Collision
import Verif.Props.Injective
import Verif.Props.Bip32
import Verif.Lemmas.Secp256k1Order
import Mathlib.Combinatorics.Pigeonhole
/-! Property theorems C117: an address belongs to one key (`src/btc/key.c`, `src/btc/address.c`). -/
open Key SecpLib Secp256k1 WordSpec AddressSpec Address

namespace OneKey

theorem pubText_inj {key key' : List Byte} {c c' : Bool} (hv : ValidKey key) (hv' : ValidKey key') (h : pubText key c = pubText key' c') :
    key = key' ∧ c = c' := by
  obtain ⟨x, y, -, h2, h3⟩ := keyGetPub_eq true key hv
  obtain ⟨x', y', -, h2', h3'⟩ := keyGetPub_eq true key' hv'
  have e : mul (beNat key) G = some (x, y) := h2
  have e' : mul (beNat key') G = some (x', y') := h2'
  rw [pubText, pubText, e, e'] at h
  have hc : c = c' := by
    have := congrArg List.length h
    revert this
    cases c <;> cases c' <;> simp [DerSpec.point, compressed_length, uncompressed_length]
  subst hc
  refine ⟨?_, rfl⟩
  have hp : (x, y) = (x', y') := by
    cases c with
    | true => exact compressed_inj h3 h3' h
    | false =>
      have h : uncompressed x y = uncompressed x' y' := h
      rw [uncompressed, uncompressed, List.cons.injEq] at h
      obtain ⟨a, b⟩ := List.append_inj h.2 (by rw [Endian.beBytes_length, Endian.beBytes_length])
      have lt : ∀ {v : Nat}, v < p → v < 256 ^ 32 := fun h => Nat.lt_trans h (by decide)
      have a := congrArg beNat a
      have b := congrArg beNat b
      rw [beNat_beBytes_lt 32 _ (lt h3.1), beNat_beBytes_lt 32 _ (lt h3'.1)] at a
      rw [beNat_beBytes_lt 32 _ (lt h3.2.1), beNat_beBytes_lt 32 _ (lt h3'.2.1)] at b
      rw [a, b]
  have hk := mul_G_inj hv.2.2 hv'.2.2 (by rw [e, e', hp])
  rw [← beBytes_beNat_of_length key 32 hv.1, ← beBytes_beNat_of_length key' 32 hv'.1, hk]

theorem hash160_peel {a b : List Byte} (h : BtcHashSpec.hash160 a = BtcHashSpec.hash160 b) : a = b ∨ Shows a b := by
  rw [BtcHashSpec.hash160, BtcHashSpec.hash160] at h
  rcases Collision.peel h with h | h
  · rcases Collision.peel h with h | h
    · exact .inl h
    · exact .inr (.inl h)
  · exact .inr (.inr h)

/-- Drawers. -/
theorem drawers (f : Nat → Nat) (A B k : Nat) (hB : 0 < B) (hf : ∀ i, i < A → f i < B) (h : B * k ≤ A) :
    ∃ y, y < B ∧ ∃ g : Fin k → Nat, Function.Injective g ∧ ∀ i, g i < A ∧ f (g i) = y := by
  obtain ⟨y, hy, hk⟩ := Finset.exists_le_card_fiber_of_mul_le_card_of_maps_to (s := Finset.range A) (t := Finset.range B) (f := f) (n := k)
    (fun i hi => Finset.mem_range.2 (hf i (Finset.mem_range.1 hi))) ⟨0, Finset.mem_range.2 hB⟩
    (by rw [Finset.card_range, Finset.card_range]; exact h)
  obtain ⟨t, ht, hc⟩ := Finset.exists_subset_card_eq hk
  refine ⟨y, Finset.mem_range.1 hy, fun i => ((Finset.equivFinOfCardEq hc).symm i : Nat), ?_, fun i => ?_⟩
  · intro i j hij
    exact (Finset.equivFinOfCardEq hc).symm.injective (Subtype.ext hij)
  · have := Finset.mem_filter.1 (ht ((Finset.equivFinOfCardEq hc).symm i).2)
    exact ⟨Finset.mem_range.1 this.1, this.2⟩

/-- The keys 1, 2, … -/
theorem valid_succ {i : Nat} (h : i < 2 ^ 255) : ValidKey (beBytes 32 (i + 1)) ∧ beNat (beBytes 32 (i + 1)) = i + 1 := by
  have hn : (2 : Nat) ^ 255 < n := by decide
  have hm : n < 256 ^ 32 := by decide
  have h1 : i + 1 < n := Nat.lt_of_le_of_lt (Nat.succ_le_of_lt h) hn
  have e := beNat_beBytes_lt 32 (i + 1) (Nat.lt_trans h1 hm)
  exact ⟨⟨Endian.beBytes_length .., by rw [e]; exact Nat.succ_pos _, by rw [e]; exact h1⟩, e⟩
end OneKey

open OneKey

/-- C117 (key ids). Two secret keys (each with a choice of the form of the public key) with the same key id are the same key with the same
choice, or their public keys show a collision of SHA-256 or of RIPEMD-160. -/
theorem C117_keyid_partial (nd nd' : Bool) (host host' : Host) (key key' o o' r r' : List Byte) (c c' : Bool) (hv : ValidKey key)
    (hv' : ValidKey key') (ho : 20 ≤ o.length) (ho' : 20 ≤ o'.length) (h : keyKeyid nd host key c o = .ok r)
    (h' : keyKeyid nd' host' key' c' o' = .ok r') (same : r.take 20 = r'.take 20) :
    (key = key' ∧ c = c') ∨ Shows (pubText key c) (pubText key' c') := by
  obtain ⟨-, -, e, -⟩ := C60_keyids nd host key o o c hv ho ho
  obtain ⟨-, -, e', -⟩ := C60_keyids nd' host' key' o' o' c' hv' ho' ho'
  rw [← Res.ok.inj (e.symm.trans h), ← Res.ok.inj (e'.symm.trans h'), Collision.take_over _ (Collision.hash160_length _),
    Collision.take_over _ (Collision.hash160_length _)] at same
  rcases hash160_peel same with h | h
  · exact .inl (pubText_inj hv hv' h)
  · exact .inr h

/-- C117 (addresses). The address of a secret key, of either kind (`seg`: witness program of version 0, otherwise pay-to-pubkey-hash), on any network:
the same text comes only from the same kind and from the same key with the same form of the public key, or the public keys show a collision. -/
theorem C117_address_partial (nd nd' : Bool) (host host' : Host) (net net' : Network) (key key' i i' id id' o o' r r' : List Byte) (l l' : Nat)
    (c c' seg seg' : Bool) (hv : ValidKey key) (hv' : ValidKey key') (hi : i.length = 20) (hi' : i'.length = 20)
    (ho : 128 ≤ o.length) (ho' : 128 ≤ o'.length)
    (h1 : keyKeyid nd host key c i = .ok id) (h1' : keyKeyid nd' host' key' c' i' = .ok id')
    (h2 : (if seg then toAddressWitnessV0Keyhash nd id 20 o o.length net.param else toAddressPubkey host id 20 o o.length net.param) = .ok (r, l))
    (h2' : (if seg' then toAddressWitnessV0Keyhash nd' id' 20 o' o'.length net'.param else toAddressPubkey host' id' 20 o' o'.length net'.param) =
      .ok (r', l'))
    (same : r.take l = r'.take l') :
    seg = seg' ∧ (if seg then net = net' else (net = .main ↔ net' = .main)) ∧
      ((key = key' ∧ c = c') ∨ Shows (pubText key c) (pubText key' c')) := by
  obtain ⟨-, -, e, -⟩ := C60_keyids nd host key i i c hv (by omega) (by omega)
  obtain ⟨-, -, e', -⟩ := C60_keyids nd' host' key' i' i' c' hv' (by omega) (by omega)
  have hl : id.length = 20 := by
    rw [← Res.ok.inj (e.symm.trans h1), over_length _ _ (by rw [Collision.hash160_length]; omega), hi]
  have hl' : id'.length = 20 := by
    rw [← Res.ok.inj (e'.symm.trans h1'), over_length _ _ (by rw [Collision.hash160_length]; omega), hi']
  have w : Item.write nd host net o (if seg then .witnessKeyhash id else .pubkeyHash id) = .ok (r, l) := by
    cases seg
    · show toAddressPubkey host id id.length o o.length net.param = _
      rw [hl]; exact h2
    · show toAddressWitnessV0Keyhash nd id id.length o o.length net.param = _
      rw [hl]; exact h2
  have w' : Item.write nd' host' net' o' (if seg' then .witnessKeyhash id' else .pubkeyHash id') = .ok (r', l') := by
    cases seg'
    · show toAddressPubkey host' id' id'.length o' o'.length net'.param = _
      rw [hl']; exact h2'
    · show toAddressWitnessV0Keyhash nd' id' id'.length o' o'.length net'.param = _
      rw [hl']; exact h2'
  obtain ⟨a, b⟩ := C87_texts nd nd' host host' net net' _ _ o o' r r' l l' (by cases seg <;> exact hl) (by cases seg' <;> exact hl') ho ho' w w' same
  have hid : seg = seg' ∧ id = id' := by
    cases seg <;> cases seg'
    · exact ⟨rfl, Item.pubkeyHash.inj a⟩
    · cases a
    · cases a
    · exact ⟨rfl, Item.witnessKeyhash.inj a⟩
  refine ⟨hid.1, ?_, C117_keyid_partial nd nd' host host' key key' i i' id id' c c' hv hv' (by omega) (by omega) h1 h1' (by rw [hid.2])⟩
  cases seg <;> exact b

/-- C117 does not hold without the second case: in either form of the public key, some key id belongs to at least 2^95 different secret
keys. -/
theorem C117_violated_keyid (c : Bool) :
    ∃ id : List Byte, id.length = 20 ∧ ∃ keys : Fin (2 ^ 95) → List Byte, Function.Injective keys ∧ ∀ i, ValidKey (keys i) ∧
      ∀ (nd : Bool) (host : Host) (o : List Byte), 20 ≤ o.length → keyKeyid nd host (keys i) c o = .ok (over id o) := by
  obtain ⟨y, hy, g, hg, hall⟩ := drawers (fun i => beNat (BtcHashSpec.hash160 (pubText (beBytes 32 (i + 1)) c))) (2 ^ 255) (2 ^ 160) (2 ^ 95)
    (by decide) (fun i _ => by
      have := beNat_lt_pow (BtcHashSpec.hash160 (pubText (beBytes 32 (i + 1)) c))
      rw [Collision.hash160_length] at this
      exact Nat.lt_of_lt_of_le this (by decide)) (by decide)
  refine ⟨beBytes 20 y, Endian.beBytes_length .., fun i => beBytes 32 (g i + 1), ?_, fun i => ⟨(valid_succ (hall i).1).1, fun nd host o ho => ?_⟩⟩
  · intro i j hij
    have := congrArg beNat hij
    rw [(valid_succ (hall i).1).2, (valid_succ (hall j).1).2] at this
    exact hg (Nat.succ.inj this)
  · obtain ⟨-, -, e, -⟩ := C60_keyids nd host (beBytes 32 (g i + 1)) o o c (valid_succ (hall i).1).1 ho ho
    rw [e, ← (hall i).2, beBytes_beNat_of_length _ 20 (Collision.hash160_length _)]
    rfl

/-- C117, fingerprints: some fingerprint belongs to at least 2^223 different secret keys. -/
theorem C117_violated_fingerprint :
    ∃ fp : BitVec 32, ∃ keys : Fin (2 ^ 223) → List Byte, Function.Injective keys ∧ ∀ i, ValidKey (keys i) ∧
      ∀ (nd : Bool) (host : Host), keyFingerprint nd host (keys i) true = .ok fp := by
  obtain ⟨y, hy, g, hg, hall⟩ := drawers (fun i => leNat (Bip32Spec.fingerprint (mul (beNat (beBytes 32 (i + 1))) G)) % 2 ^ 32)
    (2 ^ 255) (2 ^ 32) (2 ^ 223) (by decide) (fun i _ => Nat.mod_lt _ (by decide)) (by decide)
  refine ⟨BitVec.ofNat 32 y, fun i => beBytes 32 (g i + 1), ?_, fun i => ⟨(valid_succ (hall i).1).1, fun nd host => ?_⟩⟩
  · intro i j hij
    have := congrArg beNat hij
    rw [(valid_succ (hall i).1).2, (valid_succ (hall j).1).2] at this
    exact hg (Nat.succ.inj this)
  · rw [(C60_fingerprints nd host (beBytes 32 (g i + 1)) (valid_succ (hall i).1).1).1, ← (hall i).2]
    congr 1
    apply BitVec.eq_of_toNat_eq
    rw [BitVec.toNat_ofNat, BitVec.toNat_ofNat, Nat.mod_mod]
