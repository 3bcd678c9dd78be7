import Verif.Spec.Collision
import Verif.Props.Merkle
import Verif.Props.Hash
import Verif.Lemmas.BeNat
/-! Property theorems C113: digests bind what was digested (`src/hash/sha2.c`, `src/btc/hash.c`). -/
open Sha2Spec RipemdSpec HmacSpec WordSpec

namespace Collision

theorem take_over {W : List Byte} {n : Nat} (out : List Byte) (h : W.length = n) : (over W out).take n = W := by
  subst h; simp [over]

theorem peel {H : List Byte → List Byte} {x y : List Byte} (h : H x = H y) : x = y ∨ Collide H x y := by
  by_cases hxy : x = y
  · exact .inl hxy
  · exact .inr ⟨hxy, h⟩

theorem map_xor_inj (c : Byte) : ∀ {a b : List Byte}, a.map (· ^^^ c) = b.map (· ^^^ c) → a = b
  | [], [], _ => rfl
  | [], _ :: _, h => by simp at h
  | _ :: _, [], h => by simp at h
  | x :: a, y :: b, h => by
    rw [List.map_cons, List.map_cons, List.cons.injEq] at h
    have h1 := congrArg (· ^^^ c) h.1
    simp only [BitVec.xor_assoc, BitVec.xor_self, BitVec.xor_zero] at h1
    rw [h1, map_xor_inj c h.2]

theorem hmac_binds {H : List Byte → List Byte} {B : Nat} {k k' m m' : List Byte} (hl : ∀ m, (H m).length ≤ B) (h : hmac H B k m = hmac H B k' m') :
    (blockKey H B k = blockKey H B k' ∧ m = m') ∨ Collide H (first H B k m) (first H B k' m') ∨ Collide H (second H B k m) (second H B k' m') := by
  have hk := Sha2.blockKey_length H B k hl
  have hk' := Sha2.blockKey_length H B k' hl
  have h2 : H (second H B k m) = H (second H B k' m') := h
  rcases peel h2 with h2 | h2
  · rw [second, second] at h2
    obtain ⟨e1, e2⟩ := List.append_inj h2 (by rw [List.length_map, List.length_map, hk, hk'])
    rcases peel e2 with e2 | e2
    · rw [first, first] at e2
      obtain ⟨f1, f2⟩ := List.append_inj e2 (by rw [List.length_map, List.length_map, hk, hk'])
      exact .inl ⟨map_xor_inj _ e1, f2⟩
    · exact .inr (.inl e2)
  · exact .inr (.inr h2)

theorem zeros_of_pad {k k' : List Byte} {a b : Nat} (h : k ++ List.replicate a 0#8 = k' ++ List.replicate b 0#8) : SameUpToZeros k k' := by
  have pre : ∀ {c : Nat} {x y : List Byte}, List.replicate c 0#8 = x ++ y → x = List.replicate x.length 0#8 := by
    intro c x y e
    refine List.eq_replicate_iff.mpr ⟨rfl, fun v hv => ?_⟩
    have : v ∈ List.replicate c 0#8 := e ▸ List.mem_append_left _ hv
    exact List.eq_of_mem_replicate this
  rcases List.append_eq_append_iff.mp h with ⟨x, h1, h2⟩ | ⟨x, h1, h2⟩
  · exact ⟨x.length, .inl (by rw [← pre h2]; exact h1)⟩
  · exact ⟨x.length, .inr (by rw [← pre h2]; exact h1)⟩

theorem hmac256_length (k m : List Byte) : (hmac SHA256 64 k m).length = 32 := Sha2.SHA256_length _
theorem hmac512_length (k m : List Byte) : (hmac SHA512 128 k m).length = 64 := Sha2.SHA512_length _
theorem hash160_length (m : List Byte) : (BtcHashSpec.hash160 m).length = 20 := Ripemd160.RIPEMD160_length _

theorem blockKey_short {H : List Byte → List Byte} {B : Nat} {k k' : List Byte} (hk : k.length ≤ B) (hk' : k'.length ≤ B)
    (h : blockKey H B k = blockKey H B k') : SameUpToZeros k k' := by
  simp only [blockKey, if_pos hk, if_pos hk'] at h
  exact zeros_of_pad h

theorem blockKey_zeros {H : List Byte → List Byte} {B : Nat} {k : List Byte} (z : Nat) (hk : k.length + z ≤ B) :
    blockKey H B (k ++ List.replicate z 0#8) = blockKey H B k := by
  have h1 : (k ++ List.replicate z 0#8).length ≤ B := by rw [List.length_append, List.length_replicate]; exact hk
  have h2 : k.length ≤ B := by omega
  simp only [blockKey, if_pos h1, if_pos h2]
  rw [List.append_assoc, List.replicate_append_replicate, List.length_append, List.length_replicate]
  congr 2; omega

theorem blockKey_hashed {H : List Byte → List Byte} {B : Nat} {k : List Byte} (hk : B < k.length) (hl : (H k).length ≤ B) :
    blockKey H B (H k) = blockKey H B k := by
  have h1 : ¬ k.length ≤ B := by omega
  simp only [blockKey, if_neg h1, if_pos hl]

theorem root_length : ∀ (k : Nat) (l : List (List Byte)), (∀ x ∈ l, x.length = 32) → l ≠ [] → (MerkleSpec.root k l).length = 32
  | 0, [], _, h => absurd rfl h
  | 0, x :: _, h, _ => h x (by simp)
  | k+1, l, _, _ => by
    rw [MerkleSpec.root]
    split <;> exact BtcHash.hash256_length _

theorem root_binds (k : Nat) : ∀ l l' : List (List Byte), (∀ x ∈ l, x.length = 32) → (∀ x ∈ l', x.length = 32) → l ≠ [] → l.length = l'.length →
    l.length ≤ 2 ^ k → MerkleSpec.root k l = MerkleSpec.root k l' →
    l = l' ∨ ∃ x ∈ MerkleSpec.hashed k l, ∃ y ∈ MerkleSpec.hashed k l', Collide SHA256 x y := by
  induction k with
  | zero =>
    intro l l' _ _ hne hlen hl h
    match l, l', hne, hlen, hl, h with
    | [a], [b], _, _, _, h => left; rw [show a = b from h]
    | [], _, hne, _, _, _ => exact absurd rfl hne
    | _ :: _ :: _, _, _, _, hl, _ => simp at hl
    | [_], [], _, hlen, _, _ => simp at hlen
    | [_], _ :: _ :: _, _, hlen, _, _ => simp at hlen
  | succ k ih =>
    intro l l' h32 h32' hne hlen hl h
    have hne' : l' ≠ [] := by intro e; rw [e] at hlen; exact hne (List.length_eq_zero_iff.mp hlen)
    rw [MerkleSpec.root, MerkleSpec.root, ← hlen] at h
    rw [MerkleSpec.hashed, MerkleSpec.hashed, ← hlen]
    by_cases hk : l.length ≤ 2 ^ k
    · simp only [if_pos hk] at h ⊢
      rcases peel (H := SHA256) h with h1 | h1
      · rcases peel h1 with h2 | h2
        · have h3 := (List.append_inj h2 (by rw [root_length k l h32 hne, root_length k l' h32' hne'])).1
          rcases ih l l' h32 h32' hne hlen hk h3 with h4 | ⟨x, hx, y, hy, h4⟩
          · exact .inl h4
          · exact .inr ⟨x, by simp [hx], y, by simp [hy], h4⟩
        · exact .inr ⟨_, by simp, _, by simp, h2⟩
      · exact .inr ⟨_, List.mem_cons_of_mem _ List.mem_cons_self, _, List.mem_cons_of_mem _ List.mem_cons_self, h1⟩
    · simp only [if_neg hk] at h ⊢
      have hpos := Nat.two_pow_pos k
      have t32 : ∀ x ∈ l.take (2 ^ k), x.length = 32 := fun x hx => h32 x (List.mem_of_mem_take hx)
      have t32' : ∀ x ∈ l'.take (2 ^ k), x.length = 32 := fun x hx => h32' x (List.mem_of_mem_take hx)
      have d32 : ∀ x ∈ l.drop (2 ^ k), x.length = 32 := fun x hx => h32 x (List.mem_of_mem_drop hx)
      have d32' : ∀ x ∈ l'.drop (2 ^ k), x.length = 32 := fun x hx => h32' x (List.mem_of_mem_drop hx)
      have tn : l.take (2 ^ k) ≠ [] := by intro e; have := congrArg List.length e; simp only [List.length_take, List.length_nil] at this; omega
      have tn' : l'.take (2 ^ k) ≠ [] := by intro e; have := congrArg List.length e; simp only [List.length_take, List.length_nil] at this; omega
      have dn : l.drop (2 ^ k) ≠ [] := by intro e; have := congrArg List.length e; simp only [List.length_drop, List.length_nil] at this; omega
      rcases peel (H := SHA256) h with h1 | h1
      · rcases peel h1 with h2 | h2
        · have h3 := List.append_inj h2 (by rw [root_length k _ t32 tn, root_length k _ t32' tn'])
          rw [Nat.pow_succ] at hl
          rcases ih _ _ t32 t32' tn (by rw [List.length_take, List.length_take, hlen]) (by rw [List.length_take]; omega) h3.1 with h4 | ⟨x, hx, y, hy, h4⟩
          · rcases ih _ _ d32 d32' dn (by rw [List.length_drop, List.length_drop, hlen]) (by rw [List.length_drop]; omega) h3.2 with h5 | ⟨x, hx, y, hy, h5⟩
            · left
              rw [← List.take_append_drop (2 ^ k) l, h4, h5, List.take_append_drop]
            · exact .inr ⟨x, by simp [hx], y, by simp [hy], h5⟩
          · exact .inr ⟨x, by simp [hx], y, by simp [hy], h4⟩
        · exact .inr ⟨_, by simp, _, by simp, h2⟩
      · exact .inr ⟨_, List.mem_cons_of_mem _ List.mem_cons_self, _, List.mem_cons_of_mem _ List.mem_cons_self, h1⟩

theorem root_repeat (k : Nat) : ∀ (l : List (List Byte)) (hne : l ≠ []), l.length % 2 = 1 → l.length ≤ 2 ^ (k + 1) →
    MerkleSpec.root (k + 1) (l ++ [l.getLast hne]) = MerkleSpec.root (k + 1) l := by
  induction k with
  | zero =>
    intro l hne hodd hl
    match l, hne, hodd, hl with
    | [a], _, _, _ => rfl
    | [_, _], _, hodd, _ => simp at hodd
    | _ :: _ :: _ :: _, _, _, hl => simp at hl
  | succ k ih =>
    intro l hne hodd hl
    have he : 2 ^ (k + 1) % 2 = 0 := by rw [Nat.pow_succ]; omega
    conv_lhs => rw [MerkleSpec.root]
    conv_rhs => rw [MerkleSpec.root]
    rw [List.length_append, List.length_singleton]
    by_cases hk : l.length ≤ 2 ^ (k + 1)
    · rw [if_pos hk, if_pos (by omega), ih l hne hodd hk]
    · have hd : l.drop (2 ^ (k + 1)) ≠ [] := by
        intro e; have := congrArg List.length e; simp only [List.length_drop, List.length_nil] at this; omega
      rw [if_neg hk, if_neg (by omega), List.take_append_of_le_length (by omega), List.drop_append_of_le_length (by omega)]
      have := ih (l.drop (2 ^ (k + 1))) hd (by rw [List.length_drop]; omega) (by rw [List.length_drop]; rw [Nat.pow_succ _ (k + 1)] at hl; omega)
      rw [List.getLast_drop] at this
      rw [this]

/-- The two lists below the root. -/
def half (k : Nat) (l : List (List Byte)) : List (List Byte) × List (List Byte) :=
  if l.length ≤ 2 ^ k then (l, l) else (l.take (2 ^ k), l.drop (2 ^ k))

theorem root_half (k : Nat) (l : List (List Byte)) :
    MerkleSpec.root (k + 1) l = SHA256 (SHA256 (MerkleSpec.root k (half k l).1 ++ MerkleSpec.root k (half k l).2)) := by
  rw [MerkleSpec.root, half]
  split <;> rfl

theorem full_half (k : Nat) (l : List (List Byte)) :
    MerkleSpec.full (k + 1) l = MerkleSpec.full k (half k l).1 ++ MerkleSpec.full k (half k l).2 := by
  rw [MerkleSpec.full, half]
  split <;> rfl

theorem hashed_half (k : Nat) (l : List (List Byte)) (x : List Byte) :
    x ∈ MerkleSpec.hashed (k + 1) l ↔ x = MerkleSpec.root k (half k l).1 ++ MerkleSpec.root k (half k l).2 ∨
      x = SHA256 (MerkleSpec.root k (half k l).1 ++ MerkleSpec.root k (half k l).2) ∨
      x ∈ MerkleSpec.hashed k (half k l).1 ∨ x ∈ MerkleSpec.hashed k (half k l).2 := by
  rw [MerkleSpec.hashed, half]
  split
  · simp
  · simp

theorem half_ok (k : Nat) (l : List (List Byte)) (h32 : ∀ x ∈ l, x.length = 32) (hne : l ≠ []) (hl : l.length ≤ 2 ^ (k + 1)) :
    ((∀ x ∈ (half k l).1, x.length = 32) ∧ (half k l).1 ≠ [] ∧ (half k l).1.length ≤ 2 ^ k) ∧
    ((∀ x ∈ (half k l).2, x.length = 32) ∧ (half k l).2 ≠ [] ∧ (half k l).2.length ≤ 2 ^ k) := by
  rw [half]
  split
  · exact ⟨⟨h32, hne, by assumption⟩, ⟨h32, hne, by assumption⟩⟩
  · have hpos := Nat.two_pow_pos k
    rw [Nat.pow_succ] at hl
    refine ⟨⟨fun x hx => h32 x (List.mem_of_mem_take hx), ?_, ?_⟩, ⟨fun x hx => h32 x (List.mem_of_mem_drop hx), ?_, ?_⟩⟩
    · intro e; have := congrArg List.length e; simp only [List.length_take, List.length_nil] at this; omega
    · simp only [List.length_take]; omega
    · intro e; have := congrArg List.length e; simp only [List.length_drop, List.length_nil] at this; omega
    · simp only [List.length_drop]; omega

theorem full_length : ∀ (k : Nat) (l : List (List Byte)), (MerkleSpec.full k l).length = 2 ^ k
  | 0, l => by simp [MerkleSpec.full]
  | k+1, l => by rw [full_half, List.length_append, full_length, full_length, Nat.pow_succ]; omega

theorem full_binds (k : Nat) : ∀ l l' : List (List Byte), (∀ x ∈ l, x.length = 32) → (∀ x ∈ l', x.length = 32) → l ≠ [] → l' ≠ [] →
    l.length ≤ 2 ^ k → l'.length ≤ 2 ^ k → MerkleSpec.root k l = MerkleSpec.root k l' →
    MerkleSpec.full k l = MerkleSpec.full k l' ∨ ∃ x ∈ MerkleSpec.hashed k l, ∃ y ∈ MerkleSpec.hashed k l', Collide SHA256 x y := by
  induction k with
  | zero => intro l l' _ _ _ _ _ _ h; left; simp only [MerkleSpec.full]; rw [show l.headD [] = l'.headD [] from h]
  | succ k ih =>
    intro l l' h32 h32' hne hne' hl hl' h
    obtain ⟨⟨a1, a2, a3⟩, ⟨b1, b2, b3⟩⟩ := half_ok k l h32 hne hl
    obtain ⟨⟨a1', a2', a3'⟩, ⟨b1', b2', b3'⟩⟩ := half_ok k l' h32' hne' hl'
    rw [root_half, root_half] at h
    rw [full_half, full_half]
    simp only [hashed_half]
    rcases peel h with h1 | h1
    · rcases peel h1 with h2 | h2
      · obtain ⟨h3, h4⟩ := List.append_inj h2 (by rw [root_length k _ a1 a2, root_length k _ a1' a2'])
        rcases ih _ _ a1 a1' a2 a2' a3 a3' h3 with h5 | ⟨x, hx, y, hy, h5⟩
        · rcases ih _ _ b1 b1' b2 b2' b3 b3' h4 with h6 | ⟨x, hx, y, hy, h6⟩
          · left; rw [h5, h6]
          · exact .inr ⟨x, .inr (.inr (.inr hx)), y, .inr (.inr (.inr hy)), h6⟩
        · exact .inr ⟨x, .inr (.inr (.inl hx)), y, .inr (.inr (.inl hy)), h5⟩
      · exact .inr ⟨_, .inl rfl, _, .inl rfl, h2⟩
    · exact .inr ⟨_, .inr (.inl rfl), _, .inr (.inl rfl), h1⟩

theorem full_prefix (k : Nat) : ∀ l : List (List Byte), l ≠ [] → l.length ≤ 2 ^ k → l <+: MerkleSpec.full k l ∧ ∀ x ∈ MerkleSpec.full k l, x ∈ l := by
  induction k with
  | zero =>
    intro l hne hl
    match l, hne, hl with
    | [a], _, _ => simp [MerkleSpec.full]
    | _ :: _ :: _, _, hl => simp at hl
  | succ k ih =>
    intro l hne hl
    rw [MerkleSpec.full]
    have hpos := Nat.two_pow_pos k
    split
    · rename_i h
      obtain ⟨h1, h2⟩ := ih l hne h
      exact ⟨h1.trans (List.prefix_append _ _), fun x hx => (List.mem_append.mp hx).elim (h2 x) (h2 x)⟩
    · rename_i h
      rw [Nat.pow_succ] at hl
      have tl : (l.take (2 ^ k)).length = 2 ^ k := by rw [List.length_take]; omega
      obtain ⟨h1, h2⟩ := ih (l.take (2 ^ k)) (by intro e; rw [e] at tl; simp at tl; omega) (by omega)
      obtain ⟨h3, h4⟩ := ih (l.drop (2 ^ k)) (by intro e; have := congrArg List.length e; simp only [List.length_drop, List.length_nil] at this; omega)
        (by rw [List.length_drop]; omega)
      have e := h1.eq_of_length (by rw [tl, full_length])
      refine ⟨?_, fun x hx => (List.mem_append.mp hx).elim (fun h => List.mem_of_mem_take (h2 x h)) (fun h => List.mem_of_mem_drop (h4 x h))⟩
      rw [← e]
      conv_lhs => rw [← List.take_append_drop (2 ^ k) l]
      exact (List.prefix_append_right_inj _).mpr h3

theorem full_distinct {k : Nat} {l l' : List (List Byte)} (hne : l ≠ []) (hne' : l' ≠ []) (hl : l.length ≤ 2 ^ k) (hl' : l'.length ≤ 2 ^ k)
    (nd : l.Nodup) (nd' : l'.Nodup) (h : MerkleSpec.full k l = MerkleSpec.full k l') : l = l' := by
  obtain ⟨p1, m1⟩ := full_prefix k l hne hl
  obtain ⟨p2, m2⟩ := full_prefix k l' hne' hl'
  rw [← h] at p2 m2
  have key : ∀ {a b : List (List Byte)}, a <+: b → (∀ x ∈ b, x ∈ a) → b.Nodup → a = b := by
    rintro a b ⟨c, rfl⟩ hm hn
    cases c with
    | nil => simp
    | cons x c => exact absurd rfl (List.nodup_append.mp hn |>.2.2 x (hm x (by simp)) x (by simp))
  rcases Nat.le_total l.length l'.length with hle | hle
  · exact key (List.prefix_of_prefix_length_le p1 p2 hle) (fun x hx => m1 x (p2.subset hx)) nd'
  · exact (key (List.prefix_of_prefix_length_le p2 p1 hle) (fun x hx => m2 x (p1.subset hx)) nd).symm

end Collision

open Collision

/-- C113 (`fingera_btc_hash256`). Two texts with the same 32 bytes are the same text, or they (or their SHA-256 digests) are a collision of SHA-256. -/
theorem C113_hash256 (host host' : Host) (msg msg' hash hash' r r' : List Byte) (n n' : Nat) (hn : n ≤ msg.length) (hn' : n' ≤ msg'.length)
    (h61 : n < 2 ^ 61) (h61' : n' < 2 ^ 61) (hh : 32 ≤ hash.length) (hh' : 32 ≤ hash'.length)
    (h : BtcHash.hash256 host msg n hash = .ok r) (h' : BtcHash.hash256 host' msg' n' hash' = .ok r') (same : r.take 32 = r'.take 32) :
    msg.take n = msg'.take n' ∨ Collide SHA256 (msg.take n) (msg'.take n') ∨ Collide SHA256 (SHA256 (msg.take n)) (SHA256 (msg'.take n')) := by
  rw [(C32_compositions host msg n hash hn h61 hh).2] at h
  rw [(C32_compositions host' msg' n' hash' hn' h61' hh').2] at h'
  rw [← Res.ok.inj h, ← Res.ok.inj h', take_over _ (Sha2.SHA256_length _), take_over _ (Sha2.SHA256_length _)] at same
  rcases peel same with s | s
  · rcases peel s with s | s
    · exact .inl s
    · exact .inr (.inl s)
  · exact .inr (.inr s)

/-- C113 (`fingera_btc_hash160`, which makes the 20 bytes in an address). The same with a collision of SHA-256 or one of RIPEMD-160 on two SHA-256 digests. -/
theorem C113_hash160 (host host' : Host) (msg msg' hash hash' r r' : List Byte) (n n' : Nat) (hn : n ≤ msg.length) (hn' : n' ≤ msg'.length)
    (h61 : n < 2 ^ 61) (h61' : n' < 2 ^ 61) (hh : 20 ≤ hash.length) (hh' : 20 ≤ hash'.length)
    (h : BtcHash.hash160 host msg n hash = .ok r) (h' : BtcHash.hash160 host' msg' n' hash' = .ok r') (same : r.take 20 = r'.take 20) :
    msg.take n = msg'.take n' ∨ Collide SHA256 (msg.take n) (msg'.take n') ∨ Collide RIPEMD160 (SHA256 (msg.take n)) (SHA256 (msg'.take n')) := by
  rw [BtcHash.hash160_eq host msg n hash hn h61 hh] at h
  rw [BtcHash.hash160_eq host' msg' n' hash' hn' h61' hh'] at h'
  rw [← Res.ok.inj h, ← Res.ok.inj h', take_over _ (hash160_length _), take_over _ (hash160_length _)] at same
  rcases peel (H := RIPEMD160) same with s | s
  · rcases peel s with s | s
    · exact .inl s
    · exact .inr (.inl s)
  · exact .inr (.inr s)

/-- C113 (HMAC-SHA256, keys of at most a block). Two calls with the same MAC had the same text and, up to zero bytes at the end, the same key, or what they
give to SHA-256 is a collision. -/
theorem C113_hmac_sha256 (host host' : Host) (key key' msg msg' out out' r r' : List Byte) (kn kn' n n' : Nat)
    (hk : kn ≤ key.length) (hk' : kn' ≤ key'.length) (hb : kn ≤ 64) (hb' : kn' ≤ 64) (hn : n ≤ msg.length) (hn' : n' ≤ msg'.length)
    (h61 : n + 64 < 2 ^ 61) (h61' : n' + 64 < 2 ^ 61) (ho : 32 ≤ out.length) (ho' : 32 ≤ out'.length)
    (h : Sha2.hmac_sha256 host key kn msg n out = .ok r) (h' : Sha2.hmac_sha256 host' key' kn' msg' n' out' = .ok r')
    (same : r.take 32 = r'.take 32) :
    (msg.take n = msg'.take n' ∧ SameUpToZeros (key.take kn) (key'.take kn')) ∨
      Collide SHA256 (first SHA256 64 (key.take kn) (msg.take n)) (first SHA256 64 (key'.take kn') (msg'.take n')) ∨
      Collide SHA256 (second SHA256 64 (key.take kn) (msg.take n)) (second SHA256 64 (key'.take kn') (msg'.take n')) := by
  rw [C29_hmac_sha256 host key kn msg n out hk (by omega) hn h61 ho] at h
  rw [C29_hmac_sha256 host' key' kn' msg' n' out' hk' (by omega) hn' h61' ho'] at h'
  rw [← Res.ok.inj h, ← Res.ok.inj h', take_over _ (hmac256_length _ _), take_over _ (hmac256_length _ _)] at same
  rcases hmac_binds (fun m => by rw [Sha2.SHA256_length]; decide) same with ⟨s1, s2⟩ | s
  · exact .inl ⟨s2, blockKey_short (by rw [List.length_take]; omega) (by rw [List.length_take]; omega) s1⟩
  · exact .inr s

/-- C113 (HMAC-SHA512). The same with a block of 128 bytes. -/
theorem C113_hmac_sha512 (host host' : Host) (key key' msg msg' out out' r r' : List Byte) (kn kn' n n' : Nat)
    (hk : kn ≤ key.length) (hk' : kn' ≤ key'.length) (hb : kn ≤ 128) (hb' : kn' ≤ 128) (hn : n ≤ msg.length) (hn' : n' ≤ msg'.length)
    (h61 : n + 128 < 2 ^ 61) (h61' : n' + 128 < 2 ^ 61) (ho : 64 ≤ out.length) (ho' : 64 ≤ out'.length)
    (h : Sha2.hmac_sha512 host key kn msg n out = .ok r) (h' : Sha2.hmac_sha512 host' key' kn' msg' n' out' = .ok r')
    (same : r.take 64 = r'.take 64) :
    (msg.take n = msg'.take n' ∧ SameUpToZeros (key.take kn) (key'.take kn')) ∨
      Collide SHA512 (first SHA512 128 (key.take kn) (msg.take n)) (first SHA512 128 (key'.take kn') (msg'.take n')) ∨
      Collide SHA512 (second SHA512 128 (key.take kn) (msg.take n)) (second SHA512 128 (key'.take kn') (msg'.take n')) := by
  rw [C30_hmac_sha512 host key kn msg n out hk (by omega) hn h61 ho] at h
  rw [C30_hmac_sha512 host' key' kn' msg' n' out' hk' (by omega) hn' h61' ho'] at h'
  rw [← Res.ok.inj h, ← Res.ok.inj h', take_over _ (hmac512_length _ _), take_over _ (hmac512_length _ _)] at same
  rcases hmac_binds (fun m => by rw [Sha2.SHA512_length]; decide) same with ⟨s1, s2⟩ | s
  · exact .inl ⟨s2, blockKey_short (by rw [List.length_take]; omega) (by rw [List.length_take]; omega) s1⟩
  · exact .inr s

/-- C113 (`fingera_btc_bip32_hash`). The 64 bytes from which a child key is made bind chain code, key and child number. -/
theorem C113_bip32_hash (host host' : Host) (chain chain' data data' out out' r r' : List Byte) (child child' : U32) (header header' : Byte)
    (hc : chain.length = 32) (hc' : chain'.length = 32) (hd : data.length = 32) (hd' : data'.length = 32) (ho : 64 ≤ out.length) (ho' : 64 ≤ out'.length)
    (h : BtcHash.bip32_hash host chain child header data out = .ok r) (h' : BtcHash.bip32_hash host' chain' child' header' data' out' = .ok r')
    (same : r.take 64 = r'.take 64) :
    (chain = chain' ∧ child = child' ∧ header = header' ∧ data = data') ∨
      Collide SHA512 (first SHA512 128 chain (header :: data ++ beBytes 4 child.toNat)) (first SHA512 128 chain' (header' :: data' ++ beBytes 4 child'.toNat)) ∨
      Collide SHA512 (second SHA512 128 chain (header :: data ++ beBytes 4 child.toNat))
        (second SHA512 128 chain' (header' :: data' ++ beBytes 4 child'.toNat)) := by
  rw [C32_bip32_hash host chain child header data out hc hd ho] at h
  rw [C32_bip32_hash host' chain' child' header' data' out' hc' hd' ho'] at h'
  rw [← Res.ok.inj h, ← Res.ok.inj h', take_over _ (hmac512_length _ _), take_over _ (hmac512_length _ _)] at same
  rcases hmac_binds (fun m => by rw [Sha2.SHA512_length]; decide) same with ⟨s1, s2⟩ | s
  · left
    obtain ⟨t1, t2⟩ := List.append_inj s2 (by rw [List.length_cons, List.length_cons, hd, hd'])
    have t3 := beBytes_inj 4 _ _ (by have := child.isLt; omega) (by have := child'.isLt; omega) t2
    obtain ⟨z, s1 | s1⟩ := blockKey_short (by omega) (by omega) s1
    · have := congrArg List.length s1
      rw [List.length_append, List.length_replicate] at this
      obtain rfl : z = 0 := by omega
      exact ⟨by rw [s1]; simp, BitVec.eq_of_toNat_eq t3, (List.cons.inj t1).1, (List.cons.inj t1).2⟩
    · have := congrArg List.length s1
      rw [List.length_append, List.length_replicate] at this
      obtain rfl : z = 0 := by omega
      exact ⟨by rw [s1]; simp, BitVec.eq_of_toNat_eq t3, (List.cons.inj t1).1, (List.cons.inj t1).2⟩
  · exact .inr s

/-- C113 (Merkle trees made with `fingera_btc_hash256_d64`). Two lists of the same number of hashes with the same root are the same, or among what was given
to SHA-256 for the two there is a collision. -/
theorem C113_merkle_partial (host host' : Host) (leaves leaves' : List (List Byte)) (rest rest' mem mem' : List Byte)
    (h32 : ∀ x ∈ leaves, x.length = 32) (h32' : ∀ x ∈ leaves', x.length = 32) (k : Nat)
    (hk : leaves.length ≤ 2 ^ k) (hk' : 2 ^ k < 2 * leaves.length) (hlen : leaves.length = leaves'.length)
    (hroom : leaves.length % 2 = 1 → leaves.length = 1 ∨ (32 ≤ rest.length ∧ 32 ≤ rest'.length))
    (h : Merkle.merkle host (leaves.flatten ++ rest) leaves.length = .ok mem)
    (h' : Merkle.merkle host' (leaves'.flatten ++ rest') leaves'.length = .ok mem') (same : mem.take 32 = mem'.take 32) :
    leaves = leaves' ∨ ∃ x ∈ MerkleSpec.hashed k leaves, ∃ y ∈ MerkleSpec.hashed k leaves', Collide SHA256 x y := by
  obtain ⟨m, a1, a2, -⟩ := C104_merkle_root host leaves rest k h32 hk hk' (fun o => (hroom o).imp id And.left)
  obtain ⟨m', b1, b2, -⟩ := C104_merkle_root host' leaves' rest' k h32' (hlen ▸ hk) (hlen ▸ hk') (fun o => hlen ▸ (hroom (hlen ▸ o)).imp id And.right)
  rw [a1] at h
  rw [b1] at h'
  rw [← Res.ok.inj h, ← Res.ok.inj h', a2, b2] at same
  exact root_binds k leaves leaves' h32 h32' (by intro e; rw [e] at hk'; simp at hk') hlen hk same

/-- C113 (Merkle trees of the same height). Two lists of hashes with trees of the same height and the same root are the same but for repetitions: the hashes
at the bottom of the two trees are the same, or among what was given to SHA-256 for the two there is a collision. -/
theorem C113_merkle_same_height_partial (host host' : Host) (leaves leaves' : List (List Byte)) (rest rest' mem mem' : List Byte)
    (h32 : ∀ x ∈ leaves, x.length = 32) (h32' : ∀ x ∈ leaves', x.length = 32) (k : Nat)
    (hk : leaves.length ≤ 2 ^ k) (hk2 : 2 ^ k < 2 * leaves.length) (hk' : leaves'.length ≤ 2 ^ k) (hk2' : 2 ^ k < 2 * leaves'.length)
    (hroom : 32 ≤ rest.length) (hroom' : 32 ≤ rest'.length)
    (h : Merkle.merkle host (leaves.flatten ++ rest) leaves.length = .ok mem)
    (h' : Merkle.merkle host' (leaves'.flatten ++ rest') leaves'.length = .ok mem') (same : mem.take 32 = mem'.take 32) :
    MerkleSpec.full k leaves = MerkleSpec.full k leaves' ∨
      ∃ x ∈ MerkleSpec.hashed k leaves, ∃ y ∈ MerkleSpec.hashed k leaves', Collide SHA256 x y := by
  obtain ⟨m, a1, a2, -⟩ := C104_merkle_root host leaves rest k h32 hk hk2 (fun _ => .inr hroom)
  obtain ⟨m', b1, b2, -⟩ := C104_merkle_root host' leaves' rest' k h32' hk' hk2' (fun _ => .inr hroom')
  rw [a1] at h
  rw [b1] at h'
  rw [← Res.ok.inj h, ← Res.ok.inj h', a2, b2] at same
  exact full_binds k leaves leaves' h32 h32' (by intro e; rw [e] at hk2; simp at hk2) (by intro e; rw [e] at hk2'; simp at hk2') hk hk' same

/-- C113 (Merkle trees of distinct hashes). Two lists without repetitions with trees of the same height and the same root are the same, or there is a
collision among what was given to SHA-256. -/
theorem C113_merkle_distinct_partial (host host' : Host) (leaves leaves' : List (List Byte)) (rest rest' mem mem' : List Byte)
    (h32 : ∀ x ∈ leaves, x.length = 32) (h32' : ∀ x ∈ leaves', x.length = 32) (k : Nat)
    (hk : leaves.length ≤ 2 ^ k) (hk2 : 2 ^ k < 2 * leaves.length) (hk' : leaves'.length ≤ 2 ^ k) (hk2' : 2 ^ k < 2 * leaves'.length)
    (hroom : 32 ≤ rest.length) (hroom' : 32 ≤ rest'.length) (nd : leaves.Nodup) (nd' : leaves'.Nodup)
    (h : Merkle.merkle host (leaves.flatten ++ rest) leaves.length = .ok mem)
    (h' : Merkle.merkle host' (leaves'.flatten ++ rest') leaves'.length = .ok mem') (same : mem.take 32 = mem'.take 32) :
    leaves = leaves' ∨ ∃ x ∈ MerkleSpec.hashed k leaves, ∃ y ∈ MerkleSpec.hashed k leaves', Collide SHA256 x y :=
  (C113_merkle_same_height_partial host host' leaves leaves' rest rest' mem mem' h32 h32' k hk hk2 hk' hk2' hroom hroom' h h' same).imp_left
    (full_distinct (by intro e; rw [e] at hk2; simp at hk2) (by intro e; rw [e] at hk2'; simp at hk2') hk hk' nd nd')

/-- C113 is violated for trees of different heights: a node is not told from a leaf, so the hashes of the pairs are a list with the same root. -/
theorem C113_violated_merkle_height (host : Host) (a b c d : List Byte) (rest : List Byte) (ha : a.length = 32) (hb : b.length = 32) (hc : c.length = 32)
    (hd : d.length = 32) :
    ∃ mem mem', Merkle.merkle host ([a, b, c, d].flatten ++ rest) 4 = .ok mem ∧
      Merkle.merkle host ([BtcHashSpec.hash256 (a ++ b), BtcHashSpec.hash256 (c ++ d)].flatten ++ rest) 2 = .ok mem' ∧ mem.take 32 = mem'.take 32 := by
  obtain ⟨m, a1, a2, -⟩ := C104_merkle_root host [a, b, c, d] rest 2 (by simp [ha, hb, hc, hd]) (by simp) (by simp) (by simp)
  obtain ⟨m', b1, b2, -⟩ := C104_merkle_root host [BtcHashSpec.hash256 (a ++ b), BtcHashSpec.hash256 (c ++ d)] rest 1
    (by simp [BtcHash.hash256_length]) (by simp) (by simp) (by simp)
  refine ⟨m, m', a1, b1, ?_⟩
  rw [a2, b2]
  rfl

/-- C113 is violated for lists of different lengths (as in Bitcoin, CVE-2012-2459): repeating the last of an odd number of hashes (three or more) does not
change the root. -/
theorem C113_violated_merkle_length (host : Host) (leaves : List (List Byte)) (rest : List Byte) (hne : leaves ≠ []) (h32 : ∀ x ∈ leaves, x.length = 32)
    (hodd : leaves.length % 2 = 1) (h3 : 3 ≤ leaves.length) (hr : 32 ≤ rest.length) :
    ∃ mem mem', Merkle.merkle host (leaves.flatten ++ rest) leaves.length = .ok mem ∧
      Merkle.merkle host ((leaves ++ [leaves.getLast hne]).flatten ++ rest) (leaves.length + 1) = .ok mem' ∧ mem.take 32 = mem'.take 32 := by
  obtain ⟨k, hk, hk'⟩ : ∃ k, leaves.length ≤ 2 ^ (k + 1) ∧ 2 ^ (k + 1) < 2 * leaves.length := by
    refine ⟨(leaves.length - 1).log2, ?_, ?_⟩
    · have := Nat.lt_log2_self (n := leaves.length - 1); omega
    · have := Nat.log2_self_le (n := leaves.length - 1) (by omega); rw [Nat.pow_succ]; omega
  have he : 2 ^ (k + 1) % 2 = 0 := by rw [Nat.pow_succ]; omega
  have hlen : (leaves ++ [leaves.getLast hne]).length = leaves.length + 1 := by rw [List.length_append, List.length_singleton]
  obtain ⟨m, a1, a2, -⟩ := C104_merkle_root host leaves rest (k + 1) h32 hk hk' (fun _ => .inr hr)
  obtain ⟨m', b1, b2, -⟩ := C104_merkle_root host (leaves ++ [leaves.getLast hne]) rest (k + 1)
    (by
      intro x hx
      rcases List.mem_append.mp hx with hx | hx
      · exact h32 x hx
      · rw [List.mem_singleton.mp hx]; exact h32 _ (List.getLast_mem hne))
    (by omega) (by omega) (fun _ => .inr hr)
  rw [hlen] at b1
  exact ⟨m, m', a1, b1, by rw [a2, b2, root_repeat k leaves hne hodd hk]⟩

/-- C113 is violated for the keys of HMAC (as in RFC 2104): zero bytes at the end of a key that has room for them in a block make no difference. -/
theorem C113_violated_hmac_zeros (host : Host) (key msg out : List Byte) (kn n z : Nat) (hk : kn ≤ key.length) (hb : kn + z ≤ 64)
    (hn : n ≤ msg.length) (h61 : n + 64 < 2 ^ 61) (ho : 32 ≤ out.length) :
    Sha2.hmac_sha256 host (key.take kn ++ List.replicate z 0#8) (kn + z) msg n out = Sha2.hmac_sha256 host key kn msg n out := by
  have hl : (key.take kn ++ List.replicate z 0#8).length = kn + z := by
    rw [List.length_append, List.length_replicate, List.length_take, Nat.min_eq_left hk]
  rw [C29_hmac_sha256 host _ (kn + z) msg n out (by omega) (by omega) hn h61 ho, C29_hmac_sha256 host key kn msg n out hk (by omega) hn h61 ho,
    List.take_of_length_le (by omega), hmac, hmac, blockKey_zeros z (by rw [List.length_take]; omega)]

/-- C113 is violated for the keys of HMAC (as in RFC 2104): a key longer than a block and its SHA-256 digest are the same key. -/
theorem C113_violated_hmac_digest (host : Host) (key msg out : List Byte) (kn n : Nat) (hk : kn ≤ key.length) (hb : 64 < kn) (hk61 : kn < 2 ^ 61)
    (hn : n ≤ msg.length) (h61 : n + 64 < 2 ^ 61) (ho : 32 ≤ out.length) :
    Sha2.hmac_sha256 host (SHA256 (key.take kn)) 32 msg n out = Sha2.hmac_sha256 host key kn msg n out := by
  have hl := Sha2.SHA256_length (key.take kn)
  rw [C29_hmac_sha256 host _ 32 msg n out (by omega) (by omega) hn h61 ho, C29_hmac_sha256 host key kn msg n out hk hk61 hn h61 ho,
    List.take_of_length_le (by omega), hmac, hmac, blockKey_hashed (by rw [List.length_take]; omega) (by omega)]
