import Verif.Props.Overlap
import Verif.Model.Merkle
import Verif.Spec.Merkle
/-! Property theorem C104: double SHA-256 of blocks on one object, Merkle trees. -/
open Sha2Spec

namespace Merkle

theorem put_get {mem w : List Byte} {b x : Nat} (hb : b + w.length ≤ mem.length) (h : x < b ∨ b + w.length ≤ x) :
    (put mem b w)[x]? = mem[x]? := by
  have hl : (mem.take b).length = b := by rw [List.length_take]; omega
  rw [put, List.append_assoc]
  rcases h with h | h
  · rw [List.getElem?_append_left (by omega), List.getElem?_take]; simp [h]
  · rw [List.getElem?_append_right (by omega), List.getElem?_append_right (by omega), List.getElem?_drop]
    congr 1; omega

theorem part_put {mem w : List Byte} {b x n : Nat} (hb : b + w.length ≤ mem.length) (h : x + n ≤ b ∨ b + w.length ≤ x ∨ w = []) :
    ((put mem b w).drop x).take n = part mem x n := by
  rcases h with h | h | h
  · apply List.ext_getElem?; intro i
    rw [part, List.getElem?_take, List.getElem?_take]
    split
    · rw [List.getElem?_drop, List.getElem?_drop, put_get hb (by omega)]
    · rfl
  · apply List.ext_getElem?; intro i
    rw [part, List.getElem?_take, List.getElem?_take]
    split
    · rw [List.getElem?_drop, List.getElem?_drop, put_get hb (by omega)]
    · rfl
  · subst h
    simp [put, part]

/-- The digests of the first `k` blocks behind offset `a`. -/
def digestsAt (mem : List Byte) (a k : Nat) : List Byte :=
  (List.range k).flatMap fun i => SHA256 (SHA256 (part mem (a + 64 * i) 64))

theorem digestsAt_succ (mem : List Byte) (a k : Nat) :
    digestsAt mem a (k+1) = digestsAt mem a k ++ SHA256 (SHA256 (part mem (a + 64 * k) 64)) := by
  simp [digestsAt, List.range_succ]

theorem digestsAt_length (mem : List Byte) (a k : Nat) : (digestsAt mem a k).length = 32 * k := by
  induction k with
  | zero => rfl
  | succ k ih => rw [digestsAt_succ, List.length_append, ih, Sha2.SHA256_length]; omega

theorem put_length {mem w : List Byte} {b : Nat} (hb : b + w.length ≤ mem.length) : (put mem b w).length = mem.length := by
  simp [put]; omega

theorem put_append {mem w v : List Byte} {b : Nat} (hb : b + (w ++ v).length ≤ mem.length) :
    (put mem b w).take (b + w.length) ++ over v ((put mem b w).drop (b + w.length)) = put mem b (w ++ v) := by
  have hl : (mem.take b ++ w).length = b + w.length := by
    rw [List.length_append] at hb
    rw [List.length_append, List.length_take]; omega
  rw [put, List.take_left' hl, List.drop_left' hl, put, over, List.drop_drop]
  simp [Nat.add_assoc]

theorem overlap_eq (host : Host) (mem : List Byte) (a b k : Nat) (ha : a + 64 * k ≤ mem.length) (hb : b + 32 * k ≤ mem.length)
    (h : b ≤ a + 32 ∨ a + 64 * k ≤ b) : Overlap.hash256_d64 host mem a b k = .ok (put mem b (digestsAt mem a k)) := by
  have := forLoop_eq (fun i mem => Overlap.at_ (b + 32 * i) (fun o => Sha2.d64Transform host o (mem.drop (a + 64 * i))) mem)
    (fun i => put mem b (digestsAt mem a i)) k 0 (by
      intro j _ hj
      have hl := digestsAt_length mem a j
      have hw : b + (digestsAt mem a j).length ≤ mem.length := by omega
      rw [Overlap.at_, Sha2.d64Transform_eq host _ _ (by rw [List.length_drop, put_length hw]; omega)
        (by rw [List.length_drop, put_length hw]; omega)]
      rw [part_put hw (by
        rw [hl]
        rcases h with h | h
        · rcases Nat.eq_zero_or_pos j with h0 | h0
          · right; right; subst h0; rfl
          · right; left; omega
        · left; omega)]
      simp only [Res.ok_bind, Res.pure_eq]
      congr 1
      rw [digestsAt_succ, ← put_append (by rw [List.length_append, hl, Sha2.SHA256_length]; omega), hl])
  rw [Nat.zero_add] at this
  rw [Overlap.hash256_d64]
  have e : put mem b (digestsAt mem a 0) = mem := by simp [put, digestsAt]
  simp only [e] at this
  exact this

/-- One level up: the hashes of the pairs, the last one paired with itself if it is alone. -/
def level : List (List Byte) → List (List Byte)
  | [] => []
  | [x] => [SHA256 (SHA256 (x ++ x))]
  | x :: y :: r => SHA256 (SHA256 (x ++ y)) :: level r

theorem level_length (l : List (List Byte)) : (level l).length = (l.length + 1) / 2 := by
  induction l using level.induct with
  | case1 => rfl
  | case2 x => simp [level]
  | case3 x y r ih => simp only [level, List.length_cons, ih]; omega

theorem level_take (m : Nat) : ∀ l : List (List Byte), 2 * m ≤ l.length → level (l.take (2 * m)) = (level l).take m := by
  induction m with
  | zero => intro l _; simp [level]
  | succ m ih =>
    intro l h
    match l, h with
    | [], h => simp at h
    | [x], h => simp at h; omega
    | x :: y :: r, h =>
      rw [show 2 * (m + 1) = 2 * m + 1 + 1 by omega, List.take_succ_cons, List.take_succ_cons, level, level, List.take_succ_cons,
        ih r (by simp at h; omega)]

theorem level_drop (m : Nat) : ∀ l : List (List Byte), 2 * m ≤ l.length → level (l.drop (2 * m)) = (level l).drop m := by
  induction m with
  | zero => intro l _; simp
  | succ m ih =>
    intro l h
    match l, h with
    | [], h => simp at h
    | [x], h => simp at h; omega
    | x :: y :: r, h =>
      rw [show 2 * (m + 1) = 2 * m + 1 + 1 by omega, List.drop_succ_cons, List.drop_succ_cons, level, List.drop_succ_cons,
        ih r (by simp at h; omega)]

theorem root_succ (k : Nat) (l : List (List Byte)) : MerkleSpec.root (k+1) l =
    if l.length ≤ 2 ^ k then BtcHashSpec.hash256 (MerkleSpec.root k l ++ MerkleSpec.root k l)
    else BtcHashSpec.hash256 (MerkleSpec.root k (l.take (2 ^ k)) ++ MerkleSpec.root k (l.drop (2 ^ k))) := rfl

theorem root_level (k : Nat) : ∀ l : List (List Byte), l ≠ [] → l.length ≤ 2 ^ (k+1) →
    MerkleSpec.root (k+1) l = MerkleSpec.root k (level l) := by
  induction k with
  | zero =>
    intro l h0 h
    match l, h0, h with
    | [x], _, _ => rfl
    | [x, y], _, _ => rfl
    | x :: y :: z :: r, _, h => simp at h
  | succ k ih =>
    intro l h0 h
    have hl := level_length l
    have e : 2 ^ (k + 1) = 2 * 2 ^ k := by rw [Nat.pow_succ]; omega
    have e2 : 2 ^ (k + 1 + 1) = 2 * 2 ^ (k + 1) := by rw [Nat.pow_succ]; omega
    have hp : 0 < 2 ^ k := Nat.pos_of_ne_zero (by simp)
    by_cases hc : l.length ≤ 2 ^ (k+1)
    · rw [root_succ (k+1) l, if_pos hc, root_succ k (level l), if_pos (by omega), ih l h0 hc]
    · rw [root_succ (k+1) l, if_neg hc, ih (l.take (2 ^ (k+1))) (by
          intro h'; have := congrArg List.length h'; rw [List.length_take, List.length_nil] at this; omega)
          (by rw [List.length_take]; omega),
        ih (l.drop (2 ^ (k+1))) (by
          intro h'; have := congrArg List.length h'; rw [List.length_drop, List.length_nil] at this; omega)
          (by rw [List.length_drop]; omega),
        root_succ k (level l), if_neg (by omega), e, level_take _ _ (by omega), level_drop _ _ (by omega)]

theorem digestsAt_cons (p q : List Byte) (k : Nat) (hp : p.length = 64) :
    digestsAt (p ++ q) 0 (k+1) = SHA256 (SHA256 p) ++ digestsAt q 0 k := by
  rw [digestsAt, List.range_succ_eq_map, List.flatMap_cons, List.flatMap_map, digestsAt]
  congr 1
  · rw [part, Nat.zero_add, Nat.mul_zero, List.drop_zero, List.take_left' hp]
  · congr 1
    funext i
    rw [part, part, Nat.zero_add, Nat.zero_add, show 64 * (i + 1) = 64 + 64 * i by omega, ← List.drop_drop, List.drop_left' hp]

/-- The bytes of the hashes, with the last one repeated if their number is odd. -/
def evened (l : List (List Byte)) : List Byte := l.flatten ++ (if l.length % 2 = 1 then l.getLastD [] else [])

theorem digestsAt_level (l : List (List Byte)) (q : List Byte) (h : ∀ x ∈ l, x.length = 32) :
    digestsAt (evened l ++ q) 0 ((l.length + 1) / 2) = (level l).flatten := by
  induction l using level.induct with
  | case1 => rfl
  | case2 x =>
    have hx := h x (by simp)
    have := digestsAt_cons (x ++ x) q 0 (by simp [hx])
    simpa [evened, level, digestsAt] using this
  | case3 x y r ih =>
    have hx := h x (by simp)
    have hy := h y (by simp)
    have ih := ih (fun z hz => h z (by simp [hz]))
    rw [level, List.flatten_cons, ← ih, ← digestsAt_cons (x ++ y) _ _ (by simp [hx, hy])]
    congr 1
    · rw [evened, evened, List.flatten_cons, List.flatten_cons]
      have e : (x :: y :: r).length % 2 = r.length % 2 := by simp only [List.length_cons]; omega
      rw [e]
      split
      · next ho =>
        have : (x :: y :: r).getLastD [] = r.getLastD [] := by
          cases r with
          | nil => simp at ho
          | cons z r => simp [List.getLastD_eq_getLast?]
        rw [this]; simp
      · simp
    · simp only [List.length_cons]; omega

theorem flatten_length (l : List (List Byte)) (h : ∀ x ∈ l, x.length = 32) : l.flatten.length = 32 * l.length := by
  induction l with
  | nil => rfl
  | cons x r ih =>
    rw [List.flatten_cons, List.length_append, ih (fun z hz => h z (by simp [hz])), h x (by simp), List.length_cons]; omega

theorem level_hash (l : List (List Byte)) : ∀ x ∈ level l, x.length = 32 := by
  induction l using level.induct with
  | case1 => simp [level]
  | case2 x => simp [level, Sha2.SHA256_length]
  | case3 x y r ih => simpa [level, Sha2.SHA256_length] using ih

theorem merkle_eq (host : Host) (k : Nat) : ∀ (l : List (List Byte)) (rest : List Byte), (∀ x ∈ l, x.length = 32) →
    l.length ≤ 2 ^ k → 2 ^ k < 2 * l.length → (l.length % 2 = 1 → l.length = 1 ∨ 32 ≤ rest.length) →
    ∃ mem, merkle host (l.flatten ++ rest) l.length = .ok mem ∧ mem.take 32 = MerkleSpec.root k l ∧
      mem.length = (l.flatten ++ rest).length ∧ mem.drop (32 * (l.length + l.length % 2)) = rest.drop (32 * (l.length % 2)) := by
  induction k with
  | zero =>
    intro l rest h h1 h2 h3
    match l, h1, h2 with
    | [x], _, _ =>
      have hx := h x (by simp)
      refine ⟨_, ?_, ?_, rfl, ?_⟩
      · rw [merkle, dif_pos (by simp)]
      · simp [MerkleSpec.root, hx]
      · simp only [List.length_cons, List.length_nil, List.flatten_cons, List.flatten_nil, List.append_nil]
        rw [show 32 * (0 + 1 + (0 + 1) % 2) = 32 + 32 * ((0 + 1) % 2) by rfl, ← List.drop_drop, List.drop_left' hx]
    | x :: y :: r, h1, h2 => simp at h1
  | succ k ih =>
    intro l rest h h1 h2 h3
    have e : 2 ^ (k + 1) = 2 * 2 ^ k := by rw [Nat.pow_succ]; omega
    have hp : 0 < 2 ^ k := Nat.pos_of_ne_zero (by simp)
    have hn : 2 ≤ l.length := by omega
    have hl := level_length l
    have hf := flatten_length l h
    have hf' := flatten_length (level l) (level_hash l)
    have h0 : l ≠ [] := by rintro rfl; simp at hn
    -- the memory after the doubling of the last hash
    have hd : doubleLast (l.flatten ++ rest) l.length = .ok (evened l ++ rest.drop (32 * (l.length % 2))) := by
      rw [doubleLast]
      split
      · next ho =>
        have hr : 32 ≤ rest.length := by have := h3 ho; omega
        rw [evened, if_pos ho, ho]
        have hlast : ((l.flatten ++ rest).drop (32 * (l.length - 1))).take 32 = l.getLastD [] := by
          have hs := List.dropLast_concat_getLast h0
          have hg : l.getLastD [] = l.getLast h0 := by rw [List.getLastD_eq_getLast?, List.getLast?_eq_some_getLast h0]; rfl
          have hfd := flatten_length l.dropLast (fun z hz => h z (List.dropLast_subset l hz))
          rw [List.length_dropLast] at hfd
          have hfl : l.flatten = l.dropLast.flatten ++ l.getLast h0 := by
            conv => lhs; rw [← hs]
            simp
          rw [hg, hfl, List.append_assoc, List.drop_left' hfd, List.take_left' (h _ (List.getLast_mem h0))]
        rw [memcpy_ok _ _ _ _ (by rw [List.length_drop, List.length_append]; omega) (by rw [List.length_append]; omega), hlast,
          List.take_left' hf, ← List.drop_drop, List.drop_left' hf]
      · next ho =>
        rw [evened, if_neg ho, show l.length % 2 = 0 by omega]; simp
    have hev : (evened l).length = 32 * (l.length + l.length % 2) := by
      rw [evened, List.length_append, hf]
      split
      · next ho =>
        have hg : l.getLastD [] = l.getLast h0 := by rw [List.getLastD_eq_getLast?, List.getLast?_eq_some_getLast h0]; rfl
        rw [hg, h _ (List.getLast_mem h0), ho]; omega
      · simp; omega
    have h2m : l.length + l.length % 2 = 2 * ((l.length + 1) / 2) := by omega
    have hdl := digestsAt_length (evened l ++ rest.drop (32 * (l.length % 2))) 0 ((l.length + 1) / 2)
    have hdv := digestsAt_level l (rest.drop (32 * (l.length % 2))) h
    obtain ⟨mem, i1, i2, i3, i4⟩ := ih (level l) ((evened l ++ rest.drop (32 * (l.length % 2))).drop (32 * (level l).length)) (level_hash l)
      (by omega) (by omega) (by
        intro _; right
        rw [List.length_drop, List.length_append, hev]; omega)
    refine ⟨mem, ?_, ?_, ?_, ?_⟩
    · rw [merkle, dif_neg (by omega), hd, Res.ok_bind, overlap_eq host _ 0 0 _ (by rw [List.length_append, hev]; omega)
        (by rw [List.length_append, hev]; omega) (by omega), Res.ok_bind, ← hl, hl, hdv, put, List.take_zero, List.nil_append, Nat.zero_add, hf', ← hl]
      exact i1
    · rw [i2, root_level k l h0 h1]
    · rw [i3]
      rw [List.length_append, List.length_drop, List.length_append, List.length_append, hev, hf', hf, List.length_drop]
      have := h3
      omega
    · have hd2 : mem.drop (32 * (l.length + l.length % 2)) =
          (mem.drop (32 * ((level l).length + (level l).length % 2))).drop
            (32 * (l.length + l.length % 2) - 32 * ((level l).length + (level l).length % 2)) := by
        rw [List.drop_drop]; congr 1; omega
      rw [hd2, i4, List.drop_drop, List.drop_drop]
      rw [show 32 * (level l).length + (32 * ((level l).length % 2) +
        (32 * (l.length + l.length % 2) - 32 * ((level l).length + (level l).length % 2))) = (evened l).length by rw [hev]; omega]
      rw [List.drop_left' rfl]

end Merkle

/-- C104 (overlapping blocks). `fingera_btc_hash256_d64(obj + b, obj + a, k)`: if the output begins at most 32 bytes behind the beginning
of the blocks, anywhere before them, or behind their end, then the digests of the blocks as they were before the call are written, and
nothing else changes. -/
theorem C104_blocks_on_one_object (host : Host) (mem : List Byte) (a b k : Nat) (ha : a + 64 * k ≤ mem.length)
    (hb : b + 32 * k ≤ mem.length) (h : b ≤ a + 32 ∨ a + 64 * k ≤ b) :
    Overlap.hash256_d64 host mem a b k =
      .ok (put mem b ((List.range k).flatMap fun i => SHA256 (SHA256 (part mem (a + 64 * i) 64)))) :=
  Merkle.overlap_eq host mem a b k ha hb h

/-- C104 (the condition is needed). An output that begins further behind, but before the end of the blocks, destroys blocks that are
still to be read. -/
theorem C104_output_in_between_differs : ∃ mem a b k, a + 33 ≤ b ∧ a + 64 * k ≤ mem.length ∧ b + 32 * k ≤ mem.length ∧
    Overlap.hash256_d64 .little mem a b k ≠
      .ok (put mem b ((List.range k).flatMap fun i => SHA256 (SHA256 (part mem (a + 64 * i) 64)))) := by
  refine ⟨List.replicate 128 0#8, 0, 33, 2, by decide, by simp, by simp, ?_⟩
  decide +kernel

/-- C104 (Merkle root). A caller that repeatedly halves `n` hashes of 32 bytes in place (doubling the last one where their number is
odd) finds the root of the Merkle tree of the least height `k` with `n ≤ 2^k` in the first 32 bytes; memory behind the hashes (and the
place of the doubled one) is untouched. -/
theorem C104_merkle_root (host : Host) (leaves : List (List Byte)) (rest : List Byte) (k : Nat) (h32 : ∀ x ∈ leaves, x.length = 32)
    (hk : leaves.length ≤ 2 ^ k) (hk' : 2 ^ k < 2 * leaves.length)
    (hroom : leaves.length % 2 = 1 → leaves.length = 1 ∨ 32 ≤ rest.length) :
    ∃ mem, Merkle.merkle host (leaves.flatten ++ rest) leaves.length = .ok mem ∧ mem.take 32 = MerkleSpec.root k leaves ∧
      mem.length = (leaves.flatten ++ rest).length ∧
      mem.drop (32 * (leaves.length + leaves.length % 2)) = rest.drop (32 * (leaves.length % 2)) :=
  Merkle.merkle_eq host k leaves rest h32 hk hk' hroom
