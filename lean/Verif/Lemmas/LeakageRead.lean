import Verif.Model.LeakageRead
import Verif.Lemmas.LeakageKey
import Verif.Lemmas.Exkey

/-! Two runs of watched code that look the same: what the results have in common. -/
namespace Leakage
open Endian

/-- If runs of `p` and `q` look the same up to the return of one of them, then both return at that point and
their results are related by `R`. -/
def Tells {α β : Type} (p : Leak α) (q : Leak β) (R : α → β → Prop) : Prop :=
  ∀ a t b t' u u', p = .ok a t → q = .ok b t' → t ++ u = t' ++ u' → t = t' ∧ R a b

section
variable {α β γ δ : Type}

theorem ok_inj {a b : α} {t t' : List Ev} (h : (Leak.ok a t : Leak α) = .ok b t') : a = b ∧ t = t' := by
  cases h; exact ⟨rfl, rfl⟩

theorem bind_inv {p : Leak α} {k : α → Leak β} {b : β} {t : List Ev} (h : (p >>= k) = .ok b t) :
    ∃ a t1 t2, p = .ok a t1 ∧ k a = .ok b t2 ∧ t = t1 ++ t2 := by
  cases p with
  | ok a t1 =>
    rw [ok_bind] at h
    cases hk : k a with
    | ok c t2 => rw [hk, after_ok] at h; cases h; exact ⟨a, t1, t2, rfl, hk, rfl⟩
    | ub => rw [hk] at h; cases h
    | abort => rw [hk] at h; cases h
  | ub => cases h
  | abort => cases h

theorem tells_bind {p : Leak α} {q : Leak β} {k : α → Leak γ} {k' : β → Leak δ} {R : α → β → Prop}
    {S : γ → δ → Prop} (hp : Tells p q R) (hk : ∀ a b, R a b → Tells (k a) (k' b) S) : Tells (p >>= k) (q >>= k') S := by
  intro c s d s' u u' h h' e
  obtain ⟨a, t1, t2, h1, h2, rfl⟩ := bind_inv h
  obtain ⟨b, t1', t2', h1', h2', rfl⟩ := bind_inv h'
  rw [List.append_assoc, List.append_assoc] at e
  obtain ⟨e1, r⟩ := hp a t1 b t1' _ _ h1 h1' e
  subst e1
  obtain ⟨e2, r2⟩ := hk a b r c t2 d t2' u u' h2 h2' (List.append_cancel_left e)
  subst e2
  exact ⟨rfl, r2⟩

theorem tells_mono {p : Leak α} {q : Leak β} {R S : α → β → Prop} (hp : Tells p q R) (h : ∀ a b, R a b → S a b) :
    Tells p q S := fun a t b t' u u' h1 h2 e => ⟨(hp a t b t' u u' h1 h2 e).1, h a b (hp a t b t' u u' h1 h2 e).2⟩

theorem tells_refl (p : Leak α) : Tells p p (· = ·) := by
  intro a t b t' u u' h h' _
  obtain ⟨e1, e2⟩ := ok_inj (h.symm.trans h')
  exact ⟨e2, e1⟩

theorem tells_pure {a : α} {b : β} {R : α → β → Prop} (h : R a b) : Tells (pure a : Leak α) (pure b) R := by
  intro a' t b' t' u u' h1 h2 _
  cases h1; cases h2
  exact ⟨rfl, h⟩

/-- A step that is seen the same number of times. -/
theorem tells_seen {t t' : List Ev} {r : Res α} {r' : Res β} {R : α → β → Prop} (hl : t.length = t'.length)
    (h : t = t' → ∀ a b, r = .ok a → r' = .ok b → R a b) : Tells (seen t r) (seen t' r') R := by
  intro a s b s' u u' h1 h2 e
  cases r with
  | ok x =>
    cases r' with
    | ok y =>
      cases h1; cases h2
      have e1 := (List.append_inj e hl).1
      exact ⟨e1, h e1 _ _ rfl rfl⟩
    | ub => cases h2
    | abort => cases h2
  | ub => cases h1
  | abort => cases h1

theorem tells_branch {b c : Bool} : Tells (branch b) (branch c) (fun _ _ => b = c) :=
  tells_seen rfl (fun h _ _ _ _ => by
    have := (List.cons.inj h).1
    injection this)

theorem tells_ub {q : Leak β} {R : α → β → Prop} : Tells (.ub : Leak α) q R := by
  intro a t b t' u u' h; cases h

theorem tells_ub' {p : Leak α} {R : α → β → Prop} : Tells p (.ub : Leak β) R := by
  intro a t b t' u u' _ h; cases h

/-- Both sides decide in the same way. -/
theorem tells_ite {P Q : Prop} [Decidable P] [Decidable Q] {p1 p2 : Leak α} {q1 q2 : Leak β} {R : α → β → Prop}
    (h : P ↔ Q) (h1 : P → Q → Tells p1 q1 R) (h2 : ¬ P → ¬ Q → Tells p2 q2 R) :
    Tells (if P then p1 else p2) (if Q then q1 else q2) R := by
  by_cases hp : P
  · rw [if_pos hp, if_pos (h.1 hp)]; exact h1 hp (h.1 hp)
  · rw [if_neg hp, if_neg (fun hq => hp (h.2 hq))]; exact h2 hp (fun hq => hp (h.2 hq))

/-- A step both have, which needs no more attention. -/
theorem tells_same {p : Leak α} {k : α → Leak γ} {k' : α → Leak δ} {S : γ → δ → Prop}
    (hk : ∀ a, Tells (k a) (k' a) S) : Tells (p >>= k) (p >>= k') S :=
  tells_bind (tells_refl p) (fun a b e => by subst e; exact hk a)

theorem iff_of_decide {P Q : Prop} [Decidable P] [Decidable Q] (h : decide P = decide Q) : P ↔ Q := by
  by_cases hp : P <;> by_cases hq : Q <;> simp_all
end

/-! ### Hexadecimal -/

theorem rd_inj_len {α : Type} {mem : List α} {i : Nat} {a : α} (h : rd mem i = .ok a) : i < mem.length ∧ mem[i]? = some a := by
  unfold rd at h
  split at h
  · rename_i x hx
    cases h
    exact ⟨(List.getElem?_eq_some_iff.1 hx).1, hx⟩
  · cases h

theorem wr_inv {α : Type} {mem m : List α} {i : Nat} {v : α} (h : wr mem i v = .ok m) : i < mem.length ∧ m = mem.set i v := by
  unfold wr at h
  split at h
  · cases h; exact ⟨by assumption, rfl⟩
  · cases h

/-- Two outputs of which the first `n` bytes are written and equal. -/
def Agree (n : Nat) (a b : List Byte) : Prop := n ≤ a.length ∧ n ≤ b.length ∧ a.take n = b.take n

theorem agree_wr {n : Nat} {a b a' b' : List Byte} {v : Byte} (h : Agree n a b) (ha : wr a n v = .ok a') (hb : wr b n v = .ok b') :
    Agree (n + 1) a' b' := by
  obtain ⟨h1, rfl⟩ := wr_inv ha
  obtain ⟨h2, rfl⟩ := wr_inv hb
  refine ⟨by rw [List.length_set]; omega, by rw [List.length_set]; omega, ?_⟩
  rw [List.take_add_one, List.take_add_one, List.take_set_of_le (Nat.le_refl _), List.take_set_of_le (Nat.le_refl _), h.2.2,
    List.getElem?_set_self h1, List.getElem?_set_self h2]

theorem seen_load_inj {obj : String} {i j : Nat} {n : Nat} (h : [Ev.load obj i n] = [.load obj j n]) : i = j := by
  have := (List.cons.inj h).1
  injection this

theorem unhexLoop_tells (x y : List Byte) (so dst : String) : ∀ (k j : Nat) (k' : Nat) (s s' : List Byte × Nat), s.2 = s'.2 →
    Agree s.2 s.1 s'.1 →
    Tells (unhexLoop ⟨so, 0, x⟩ dst j k s) (unhexLoop ⟨so, 0, y⟩ dst j k' s') (fun r r' => r.2 = r'.2 ∧ Agree r.2 r.1 r'.1)
  | 0, j, 0, s, s', hn, ha => by
    unfold unhexLoop
    exact tells_same (fun _ => tells_pure ⟨hn, ha⟩)
  | 0, j, k'+1, s, s', hn, ha => by
    unfold unhexLoop
    exact tells_bind tells_branch (fun _ _ h => by cases h)
  | k+1, j, 0, s, s', hn, ha => by
    unfold unhexLoop
    exact tells_bind tells_branch (fun _ _ h => by cases h)
  | k+1, j, k'+1, s, s', hn, ha => by
    unfold unhexLoop
    refine tells_same (fun _ => ?_)
    refine tells_bind (R := fun _ _ => True) (tells_seen rfl (fun _ _ _ _ _ => trivial)) (fun c c' _ => ?_)
    refine tells_bind (R := fun a b => a = b) (tells_seen rfl (fun h a b h1 h2 => ?_)) (fun high _ e => ?_)
    · rw [seen_load_inj h, h2] at h1; cases h1; rfl
    subst e
    refine tells_bind (R := fun _ _ => True) (tells_seen rfl (fun _ _ _ _ _ => trivial)) (fun d d' _ => ?_)
    refine tells_bind (R := fun a b => a = b) (tells_seen rfl (fun h a b h1 h2 => ?_)) (fun low _ e => ?_)
    · rw [seen_load_inj h, h2] at h1; cases h1; rfl
    subst e
    refine tells_same (fun _ => tells_ite Iff.rfl (fun _ _ => tells_pure ⟨hn, ha⟩) (fun _ _ => ?_))
    rw [← hn]
    refine tells_bind (R := fun a b => Agree (s.2 + 1) a b) (tells_seen rfl (fun _ a b h1 h2 => agree_wr ha h1 h2)) (fun a b h => ?_)
    exact unhexLoop_tells x y so dst k (j + 1) k' _ _ rfl h

theorem fromHex_tells (x y o o' : List Byte) (n n' : Nat) (so dst : String) :
    Tells (fromHex ⟨so, 0, x⟩ n dst o) (fromHex ⟨so, 0, y⟩ n' dst o') (fun r r' => r.2 = r'.2 ∧ Agree r.2 r.1 r'.1) :=
  unhexLoop_tells x y so dst _ _ _ _ _ rfl ⟨Nat.zero_le _, Nat.zero_le _, rfl⟩

/-! ### Base 58 -/

theorem skipSpaces_tells (cs : Bool) (obj : String) : ∀ (x y : List Byte) (p n : Nat),
    Tells (skipSpaces cs obj p x n) (skipSpaces cs obj p y n) (fun r r' => r.2 = r'.2)
  | [], _, p, n => by unfold skipSpaces; exact tells_ub
  | _ :: _, [], p, n => by
    rw [show skipSpaces cs obj p [] n = .ub from by unfold skipSpaces; rfl]; exact tells_ub'
  | c :: x, d :: y, p, n => by
    unfold skipSpaces
    refine tells_bind (R := fun _ _ => decide (c ≠ 0#8) = decide (d ≠ 0#8)) (tells_seen rfl (fun h _ _ _ _ => ?_)) (fun _ _ h => ?_)
    · have := (List.cons.inj (List.cons.inj h).2).1
      injection this
    refine tells_ite (not_iff_not.1 (iff_of_decide h)) (fun _ _ => tells_pure rfl) (fun _ _ => ?_)
    refine tells_bind (R := fun _ _ => True) (tells_seen rfl (fun _ _ _ _ _ => trivial)) (fun s s' _ => ?_)
    refine tells_bind tells_branch (fun _ _ h => ?_)
    subst h
    exact tells_ite Iff.rfl (fun _ _ => skipSpaces_tells cs obj x y (p + 1) (n + 1)) (fun _ _ => tells_pure rfl)

theorem countOnes_tells (obj : String) : ∀ (x y : List Byte) (p n : Nat),
    Tells (countOnes obj p x n) (countOnes obj p y n) (fun r r' => r.2 = r'.2)
  | [], _, p, n => by unfold countOnes; exact tells_ub
  | _ :: _, [], p, n => by
    rw [show countOnes obj p [] n = .ub from by unfold countOnes; rfl]; exact tells_ub'
  | c :: x, d :: y, p, n => by
    unfold countOnes
    refine tells_bind (R := fun _ _ => decide (c = chr '1') = decide (d = chr '1')) (tells_seen rfl (fun h _ _ _ _ => ?_)) (fun _ _ h => ?_)
    · have := (List.cons.inj (List.cons.inj h).2).1
      injection this
    exact tells_ite (iff_of_decide h) (fun _ _ => countOnes_tells obj x y (p + 1) (n + 1)) (fun _ _ => tells_pure rfl)

/-- What two runs of the digit loop have in common. -/
def SameDigits : Base58.DigitsResult → Base58.DigitsResult → Prop
  | none, none => True
  | some (_, b, l), some (_, b', l') => b = b' ∧ l = l'
  | _, _ => False

theorem digitLoop_tells (cs : Bool) (size : Nat) (obj : String) : ∀ (x y : List Byte) (p : Nat) (b : List Byte) (l : Nat),
    Tells (digitLoop cs size obj p x b l) (digitLoop cs size obj p y b l) SameDigits
  | [], _, p, b, l => by unfold digitLoop; exact tells_ub
  | _ :: _, [], p, b, l => by
    rw [show digitLoop cs size obj p [] b l = .ub from by unfold digitLoop; rfl]; exact tells_ub'
  | c :: x, d :: y, p, b, l => by
    unfold digitLoop
    refine tells_bind (R := fun _ _ => decide (c ≠ 0#8) = decide (d ≠ 0#8)) (tells_seen rfl (fun h _ _ _ _ => ?_)) (fun _ _ h => ?_)
    · have := (List.cons.inj (List.cons.inj h).2).1
      injection this
    refine tells_ite (not_iff_not.1 (iff_of_decide h)) (fun _ _ => tells_pure ⟨rfl, rfl⟩) (fun _ _ => ?_)
    refine tells_bind (R := fun _ _ => True) (tells_seen rfl (fun _ _ _ _ _ => trivial)) (fun s s' _ => ?_)
    refine tells_bind tells_branch (fun _ _ h => ?_)
    have h : s = s' := by simpa using h
    subst h
    refine tells_ite Iff.rfl (fun _ _ => tells_pure ⟨rfl, rfl⟩) (fun _ _ => ?_)
    refine tells_bind (R := fun a b => a = b) (tells_seen rfl (fun h a b h1 h2 => ?_)) (fun v _ e => ?_)
    · rw [seen_load_inj h, h2] at h1; cases h1; rfl
    subst e
    refine tells_same (fun _ => tells_ite Iff.rfl (fun _ _ => tells_pure trivial) (fun _ _ => ?_))
    refine tells_same (fun r => tells_same (fun _ => ?_))
    exact digitLoop_tells cs size obj x y (p + 1) _ _

theorem skipTrailing_tells (cs : Bool) (obj : String) : ∀ (x y : List Byte) (p q : Nat),
    Tells (skipTrailing cs obj p x) (skipTrailing cs obj q y) (fun _ _ => True)
  | [], _, p, q => by unfold skipTrailing; exact tells_ub
  | _ :: _, [], p, q => by
    rw [show skipTrailing cs obj q [] = .ub from by unfold skipTrailing; rfl]; exact tells_ub'
  | c :: x, d :: y, p, q => by
    unfold skipTrailing
    refine tells_bind (R := fun _ _ => True) (tells_seen rfl (fun _ _ _ _ _ => trivial)) (fun s s' _ => ?_)
    refine tells_bind tells_branch (fun _ _ h => ?_)
    subst h
    exact tells_ite Iff.rfl (fun _ _ => skipTrailing_tells cs obj x y (p + 1) (q + 1)) (fun _ _ => tells_pure trivial)

theorem inLoop_tells (b256 : List Byte) (dst : String) : ∀ (k it pos : Nat) (o o' : List Byte), Agree pos o o' →
    Tells (inLoop b256 dst it pos k o) (inLoop b256 dst it pos k o') (fun r r' => Agree (pos + k) r r')
  | 0, it, pos, o, o', h => by
    unfold inLoop
    exact tells_same (fun _ => tells_pure h)
  | k+1, it, pos, o, o', h => by
    unfold inLoop
    refine tells_same (fun _ => tells_same (fun d => ?_))
    refine tells_bind (R := fun a b => Agree (pos + 1) a b) (tells_seen rfl (fun _ a b h1 h2 => agree_wr h h1 h2)) (fun a b h => ?_)
    have := inLoop_tells b256 dst k (it + 1) (pos + 1) a b h
    rwa [Nat.add_assoc, Nat.add_comm 1 k] at this

theorem memset_inv {mem m : List Byte} {v : Byte} {n : Nat} (h : memset mem 0 v n = .ok m) :
    n ≤ mem.length ∧ m = List.replicate n v ++ mem.drop n := by
  unfold memset at h
  split at h
  · cases h
    refine ⟨by omega, by simp⟩
  · cases h

/-- The results of reading two texts: as many bytes, and the same ones (`lim`: fewer than 2^32). -/
def SameData (r r' : List Byte × Nat) : Prop := r.2 = r'.2 ∧ Agree r.2 r.1 r'.1 ∧ r.2 < 2 ^ 32

theorem workSize_lt {d : Int} {n : Nat} (h : Base58.workSize d = .ok n) : n < 2 ^ 31 := by
  unfold Base58.workSize at h
  split at h
  · cases h
  · simp only at h
    split at h
    · cases h
    · cases h
      rename_i h1 h2
      have : Int.tdiv (d * 733) 1000 ≤ (2 ^ 31 - 1) / 1 := by
        by_cases hd : 0 ≤ d * 733
        · rw [Int.tdiv_eq_ediv_of_nonneg hd]; omega
        · have := Int.tdiv_nonneg (a := -(d * 733)) (b := 1000) (by omega) (by omega)
          rw [Int.neg_tdiv] at this
          omega
      by_cases hd : 0 ≤ d * 733
      · rw [Int.tdiv_eq_ediv_of_nonneg hd] at h2 ⊢; omega
      · have := Int.tdiv_nonneg (a := -(d * 733)) (b := 1000) (by omega) (by omega)
        rw [Int.neg_tdiv] at this
        omega

theorem fromBase58_tells (cs : Bool) (x y o o' : List Byte) (n : Nat) (so dst : String) :
    Tells (fromBase58 cs ⟨so, 0, x⟩ n dst o) (fromBase58 cs ⟨so, 0, y⟩ n dst o') SameData := by
  unfold fromBase58
  refine tells_bind (skipSpaces_tells cs so x y 0 0) (fun a b h => ?_)
  obtain ⟨x1, sk⟩ := a
  obtain ⟨y1, sk'⟩ := b
  simp only at h
  subst h
  refine tells_bind (countOnes_tells so x1 y1 _ 0) (fun a b h => ?_)
  obtain ⟨x2, z⟩ := a
  obtain ⟨y2, z'⟩ := b
  simp only at h
  subst h
  simp only
  refine tells_ite Iff.rfl (fun _ _ => tells_ub) (fun hz _ => ?_)
  refine tells_bind (R := fun a b => a = b ∧ a < 2 ^ 31) (tells_seen rfl (fun _ a b h1 h2 => ?_)) (fun size _ e => ?_)
  · rw [h1] at h2; cases h2; exact ⟨rfl, workSize_lt h1⟩
  obtain ⟨e, hsize⟩ := e
  subst e
  refine tells_same (fun _ => tells_same (fun b0 => ?_))
  refine tells_bind (digitLoop_tells cs size so x2 y2 _ b0 0) (fun a b h => ?_)
  match a, b, h with
  | none, none, _ => exact tells_same (fun _ => tells_same (fun _ => tells_pure ⟨rfl, ⟨Nat.zero_le _, Nat.zero_le _, rfl⟩, by simp⟩))
  | some (x3, b, l), some (y3, b', l'), h =>
    obtain ⟨h1, h2⟩ := h
    subst h1; subst h2
    simp only
    refine tells_bind (skipTrailing_tells cs so x3 y3 _ _) (fun x4 y4 _ => ?_)
    refine tells_bind (R := fun _ _ => True) (tells_seen rfl (fun _ _ _ _ _ => trivial)) (fun c c' _ => ?_)
    refine tells_bind tells_branch (fun _ _ h => ?_)
    refine tells_ite (iff_of_decide h)
      (fun _ _ => tells_same (fun _ => tells_same (fun _ => tells_pure ⟨rfl, ⟨Nat.zero_le _, Nat.zero_le _, rfl⟩, by simp⟩))) (fun _ _ => ?_)
    refine tells_same (fun it => ?_)
    refine tells_bind (R := fun a b => Agree z a b) (tells_seen rfl (fun _ a b h1 h2 => ?_)) (fun o1 o2 h => ?_)
    · obtain ⟨l1, rfl⟩ := memset_inv h1
      obtain ⟨l2, rfl⟩ := memset_inv h2
      refine ⟨by simp, by simp, ?_⟩
      rw [List.take_append_of_le_length (by simp), List.take_append_of_le_length (by simp)]
    refine tells_bind (inLoop_tells b dst (size - it) it z o1 o2 h) (fun _ _ h => ?_)
    exact tells_same (fun _ => tells_same (fun _ => tells_pure ⟨rfl, h, by simp only; omega⟩))

/-! ### Base58Check and keys -/

theorem hash256_tells (host host' : Host) (dst : String) (a b : List Byte) (n : Nat) (h : Agree n a b) (hn : n < 2 ^ 61) :
    Tells (hash256 host ⟨dst, 0, a⟩ n "hash" (List.replicate 32 0xAA#8)) (hash256 host' ⟨dst, 0, b⟩ n "hash" (List.replicate 32 0xAA#8))
      (· = ·) := by
  rw [hash256_shows host ⟨dst, 0, a⟩ n "hash" _ _ (BtcHash.hash256_eq host a n _ h.1 hn (by simp)),
    hash256_shows host' ⟨dst, 0, b⟩ n "hash" _ _ (BtcHash.hash256_eq host' b n _ h.2.1 hn (by simp)), h.2.2]
  exact tells_refl _

theorem memeq_inv {a b : List Byte} {n : Nat} {r : Bool} (h : memeq a b n = .ok r) :
    n ≤ a.length ∧ n ≤ b.length ∧ r = (a.take n == b.take n) := by
  unfold memeq at h
  split at h
  · rename_i hh
    cases h; exact ⟨hh.1, hh.2, rfl⟩
  · cases h

theorem memeqL_tells (a b a' b' : Ptr) (n : Nat) : Tells (memeqL a b n) (memeqL a' b' n) (· = ·) := by
  unfold memeqL
  refine tells_bind (R := fun _ _ => True) (tells_seen rfl (fun _ _ _ _ _ => trivial)) (fun s s' _ => ?_)
  refine tells_bind tells_branch (fun _ _ h => ?_)
  exact tells_pure (by simpa using h)

theorem agree_le {n m : Nat} {a b : List Byte} (h : Agree n a b) (hm : m ≤ n) : Agree m a b :=
  ⟨Nat.le_trans hm h.1, Nat.le_trans hm h.2.1, by
    have := congrArg (List.take m) h.2.2
    rwa [List.take_take, List.take_take, Nat.min_eq_left hm] at this⟩

theorem fromBase58Check_tells (host host' : Host) (cs : Bool) (x y o o' : List Byte) (n : Nat) (so dst : String) :
    Tells (fromBase58Check host cs ⟨so, 0, x⟩ n dst o) (fromBase58Check host' cs ⟨so, 0, y⟩ n dst o') SameData := by
  unfold fromBase58Check
  refine tells_bind (fromBase58_tells cs x y o o' n so dst) (fun a b h => ?_)
  obtain ⟨a, m⟩ := a
  obtain ⟨b, m'⟩ := b
  obtain ⟨h1, h2, h3⟩ := h
  simp only at h1 h2 h3
  subst h1
  refine tells_same (fun _ => tells_ite Iff.rfl (fun _ _ => tells_pure ⟨rfl, ⟨Nat.zero_le _, Nat.zero_le _, rfl⟩, by simp⟩) (fun _ _ => ?_))
  refine tells_bind (hash256_tells host host' dst a b (m - 4) (agree_le h2 (by omega)) (by omega)) (fun d _ e => ?_)
  subst e
  refine tells_bind (memeqL_tells _ _ _ _ _) (fun s _ e => ?_)
  subst e
  exact tells_ite Iff.rfl (fun _ _ => tells_pure ⟨rfl, agree_le h2 (by simp only; omega), by simp only; omega⟩)
    (fun _ _ => tells_pure ⟨rfl, ⟨Nat.zero_le _, Nat.zero_le _, rfl⟩, by simp⟩)

theorem memcpy_inv {a m src : List Byte} {n : Nat} (h : memcpy a 0 src n = .ok m) :
    n ≤ src.length ∧ n ≤ a.length ∧ m = src.take n ++ a.drop n := by
  unfold memcpy at h
  split at h
  · rename_i hh
    cases h
    refine ⟨by omega, by omega, by simp⟩
  · cases h

/-- The results of reading two texts as keys: the same verdict, and if it is positive the same key and the same flag. -/
def SameKey (r r' : Key.FromString) : Prop :=
  r.ok = r'.ok ∧ (r.ok = true → Agree 32 r.key32 r'.key32 ∧ r.isCompressed = r'.isCompressed)

theorem agree_drop {n m : Nat} {a b : List Byte} (h : Agree (n + m) a b) : (a.drop n).take m = (b.drop n).take m := by
  have := congrArg (List.drop n) h.2.2
  rwa [List.drop_take, List.drop_take, Nat.add_sub_cancel_left] at this

theorem wifFinish_tells (a b k k' : List Byte) (c : Int) (param : ChainParameters)
    (h : Agree (param.prefixSecretKeySize + 32) a b) : Tells (wifFinish a k c param) (wifFinish b k' c param) SameKey := by
  unfold wifFinish
  refine tells_bind (memeqL_tells _ _ _ _ _) (fun s _ e => ?_)
  subst e
  refine tells_ite Iff.rfl (fun _ _ => tells_pure ⟨rfl, fun h => by cases h⟩) (fun _ _ => ?_)
  refine tells_bind (R := fun p q => Agree 32 p q) (tells_seen rfl (fun _ p q h1 h2 => ?_)) (fun p q e => tells_pure ⟨rfl, fun _ => ⟨e, rfl⟩⟩)
  obtain ⟨l1, l2, rfl⟩ := memcpy_inv h1
  obtain ⟨l3, l4, rfl⟩ := memcpy_inv h2
  simp only at l1 l3 ⊢
  rw [agree_drop h]
  refine ⟨?_, ?_, ?_⟩
  · rw [List.length_append, List.length_take]; omega
  · rw [List.length_append, List.length_take]; omega
  · rw [List.take_append_of_le_length (by rw [List.length_take]; omega), List.take_append_of_le_length (by rw [List.length_take]; omega)]

theorem keyFromString_tells (nd : Bool) (host host' : Host) (cs : Bool) (x y : List Byte) (n : Nat) (k k' : List Byte) (c c' : Int)
    (param : ChainParameters) :
    Tells (keyFromString nd host cs ⟨"str", 0, x⟩ n k c param) (keyFromString nd host' cs ⟨"str", 0, y⟩ n k' c' param) SameKey := by
  unfold keyFromString
  refine tells_same (fun _ => ?_)
  refine tells_bind (fromBase58Check_tells host host' cs x y _ _ n "str" "buf") (fun a b h => ?_)
  obtain ⟨a, m⟩ := a
  obtain ⟨b, m'⟩ := b
  obtain ⟨h1, h2, h3⟩ := h
  simp only at h1 h2 h3
  subst h1
  have no : SameKey ⟨false, k, c⟩ ⟨false, k', c'⟩ := ⟨rfl, fun h => by cases h⟩
  refine tells_same (fun _ => tells_ite Iff.rfl (fun _ _ => tells_pure no) (fun hm _ => ?_))
  refine tells_same (fun _ => tells_ite Iff.rfl (fun hp _ => ?_) (fun hp _ => ?_))
  · refine tells_same (fun _ => tells_ite Iff.rfl (fun _ _ => tells_pure no) (fun hq _ => ?_))
    refine tells_bind (R := fun _ _ => True) (tells_seen rfl (fun _ _ _ _ _ => trivial)) (fun v v' _ => ?_)
    refine tells_bind tells_branch (fun _ _ h => ?_)
    refine tells_ite (iff_of_decide h) (fun _ _ => tells_pure no) (fun _ _ => tells_same (fun _ => ?_))
    exact wifFinish_tells a b k k' 1 param (agree_le h2 (by omega))
  · exact tells_same (fun _ => wifFinish_tells a b k k' 0 param (agree_le h2 (by omega)))

/-- The results of reading two texts as extended keys: the same verdict, and if it is positive the same extended key, where the output
structures have arrays of 32 bytes. -/
def SameExkey (r r' : Exkey.ExKey × Bool) : Prop := r.2 = r'.2 ∧ (r.2 = true → r.1 = r'.1)

theorem tells_eq {α : Type} {p q : Leak α} (h : p = q) : Tells p q (· = ·) := by subst h; exact tells_refl p

theorem decoded_eq {a b : List Byte} (ha : 74 ≤ a.length) (hb : 74 ≤ b.length) (e : a.take 74 = b.take 74) :
    (⟨Exkey.extOf a, (a.drop 42).take 32⟩ : Exkey.ExKey) = ⟨Exkey.extOf b, (b.drop 42).take 32⟩ := by
  have seg : ∀ i j, i + j ≤ 74 → (a.drop i).take j = (b.drop i).take j := by
    intro i j h
    exact agree_drop (agree_le ⟨ha, hb, e⟩ h)
  have h0 : a.headD 0#8 = b.headD 0#8 := by
    have := seg 0 1 (by omega)
    match a, b, ha, hb, this with
    | x :: _, y :: _, _, _, h => exact (List.cons.inj h).1
  unfold Exkey.extOf
  rw [h0, seg 1 4 (by omega), seg 5 4 (by omega), seg 9 32 (by omega), seg 42 32 (by omega)]

theorem exkeyFromString_tells (nd : Bool) (host host' : Host) (cs : Bool) (x y : List Byte) (n : Nat) (k k' : Exkey.ExKey)
    (param : ChainParameters) (hk : k.key.length = 32 ∧ k.ext.chainCode.length = 32) (hk' : k'.key.length = 32 ∧ k'.ext.chainCode.length = 32) :
    Tells (exkeyFromString nd host cs ⟨"str", 0, x⟩ n k param) (exkeyFromString nd host' cs ⟨"str", 0, y⟩ n k' param) SameExkey := by
  unfold exkeyFromString
  refine tells_same (fun _ => ?_)
  refine tells_bind (fromBase58Check_tells host host' cs x y _ _ n "str" "extkey") (fun a b h => ?_)
  obtain ⟨a, m⟩ := a
  obtain ⟨b, m'⟩ := b
  obtain ⟨h1, h2, h3⟩ := h
  simp only at h1 h2 h3
  subst h1
  have no : SameExkey (k, false) (k', false) := ⟨rfl, fun h => by cases h⟩
  refine tells_same (fun _ => tells_same (fun _ => tells_ite Iff.rfl (fun _ _ => tells_pure no) (fun hm _ => ?_)))
  refine tells_same (fun _ => tells_ite Iff.rfl (fun hp _ => tells_pure no) (fun hp _ => ?_))
  refine tells_bind (memeqL_tells _ _ _ _ _) (fun s _ e => ?_)
  subst e
  refine tells_ite Iff.rfl (fun _ _ => tells_pure no) (fun _ _ => ?_)
  have ha : 74 ≤ (a.drop (m - 74)).length := by rw [List.length_drop]; have := h2.1; omega
  have hb : 74 ≤ (b.drop (m - 74)).length := by rw [List.length_drop]; have := h2.2.1; omega
  have e : (a.drop (m - 74)).take 74 = (b.drop (m - 74)).take 74 := agree_drop (agree_le h2 (by omega))
  have r1 := exkeyDecode_shows host ⟨"extkey", m - 74, a.drop (m - 74)⟩ k _ (Exkey.exkeyDecode_eq host _ k ha hk.2 hk.1)
  have r2 := exkeyDecode_shows host' ⟨"extkey", m - 74, b.drop (m - 74)⟩ k' _ (Exkey.exkeyDecode_eq host' _ k' hb hk'.2 hk'.1)
  rw [r1, r2]
  exact tells_bind (R := fun a b => a = b) (tells_eq (by rw [decoded_eq ha hb e])) (fun p q e => tells_same (fun _ => tells_pure ⟨rfl, fun _ => e⟩))

end Leakage
