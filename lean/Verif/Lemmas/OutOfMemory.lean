import Verif.Model.OutOfMemory
import Verif.Lemmas.Basic
import Verif.Lemmas.Base58Total
/-! Lemmas about computations with an allocator that may refuse. -/
namespace OutOfMemory

/-- How the number of requests may change. -/
structure Counts (R : Nat → Nat → Prop) : Prop where
  refl : ∀ k, R k k
  trans : ∀ a b c, R a b → R b c → R a c

theorem counts_eq : Counts (fun a b => a = b) := ⟨fun _ => rfl, fun _ _ _ h h' => h.trans h'⟩
theorem counts_any : Counts (fun _ _ => True) := ⟨fun _ => trivial, fun _ _ _ _ _ => trivial⟩

/-- `t` does what `m` does; the number of requests changes as `R` allows. -/
def Does {α : Type} (R : Nat → Nat → Prop) (t : Al α) (m : Res α) : Prop :=
  ∀ k, ∃ d, R k d ∧ t k = m.bind fun a => .ok (a, d)

/-- Requests for `size` bytes are served. -/
def Serves (R : Nat → Nat → Prop) (g : Grant) (size : Nat) : Prop :=
  ∀ k, ∃ d, R k d ∧ declare g size k = .ok (some (List.replicate size 0xAA#8), d)

variable {α β : Type} {R : Nat → Nat → Prop} {g : Grant}

theorem serves_small (g : Grant) {size : Nat} (hR : Counts R) (h : size ≤ 128) : Serves R g size := by
  intro k
  exact ⟨k, hR.refl k, by rw [declare, if_pos h]; rfl⟩

theorem serves_granted (g : Grant) (h : ∀ k s, g k s = true) (size : Nat) : Serves (fun _ _ => True) g size := by
  intro k
  by_cases hs : size ≤ 128
  · exact ⟨k, trivial, by rw [declare, if_pos hs]; rfl⟩
  · exact ⟨k + 1, trivial, by rw [declare, if_neg hs, malloc, h]; rfl⟩

theorem Does.pure (hR : Counts R) (a : α) : Does R (Pure.pure a) (Pure.pure a) := fun k => ⟨k, hR.refl k, rfl⟩

theorem Does.lift (hR : Counts R) (m : Res α) : Does R (monadLift m : Al α) m := fun k => ⟨k, hR.refl k, rfl⟩

theorem Does.bind (hR : Counts R) {t : Al α} {m : Res α} {f : α → Al β} {h : α → Res β} (h1 : Does R t m)
    (h2 : ∀ a, m = .ok a → Does R (f a) (h a)) : Does R (t >>= f) (m >>= h) := by
  intro k
  obtain ⟨d, hd, e⟩ := h1 k
  cases m with
  | ub => exact ⟨k, hR.refl k, by show (t k).bind _ = _; rw [e]; rfl⟩
  | abort => exact ⟨k, hR.refl k, by show (t k).bind _ = _; rw [e]; rfl⟩
  | ok a =>
    obtain ⟨d', hd', e'⟩ := h2 a rfl d
    exact ⟨d', hR.trans _ _ _ hd hd', by show (t k).bind _ = _; rw [e]; exact e'⟩

theorem Does.liftBind (hR : Counts R) {m : Res α} {f : α → Al β} {h : α → Res β}
    (h2 : ∀ a, m = .ok a → Does R (f a) (h a)) : Does R ((monadLift m : Al α) >>= f) (m >>= h) :=
  Does.bind hR (Does.lift hR m) h2

theorem Does.skip {m : Res α} {a : α} {f : α → Al β} {r : Res β} (hm : m = .ok a) (h : Does R (f a) r) :
    Does R ((monadLift m : Al α) >>= f) r := by
  rw [hm]; exact h

theorem Does.declare (hR : Counts R) {size : Nat} {f : Option (List Byte) → Al β} {m : Res β} (hs : Serves R g size)
    (h : Does R (f (some (List.replicate size 0xAA#8))) m) : Does R (OutOfMemory.declare g size >>= f) m := by
  intro k
  obtain ⟨d, hd, e⟩ := hs k
  obtain ⟨d', hd', e'⟩ := h d
  exact ⟨d', hR.trans _ _ _ hd hd', by show (OutOfMemory.declare g size k).bind _ = _; rw [e]; exact e'⟩

theorem memset_whole (mem : List Byte) (n : Nat) (h : mem.length = n) : memset mem 0 0#8 n = .ok (List.replicate n 0#8) := by
  rw [memset, if_pos (by omega)]
  simp [← h]

theorem toBase58_does (hR : Counts R) (buf : List Byte) (n : Nat) (str : List Byte)
    (hs : ∀ z, Base58.skipZeroes buf n 0 = .ok z → Serves R g ((n - z) * 138 / 100 + 1)) :
    Does R (toBase58 g buf n str) (Base58.toBase58 buf n str) := by
  unfold toBase58 Base58.toBase58
  refine Does.liftBind hR fun z hz => ?_
  dsimp only
  split
  · exact Does.lift hR _
  · refine Does.declare hR (hs z hz) ?_
    have e := memset_whole (List.replicate ((n - z) * 138 / 100 + 1) 0xAA#8) _ (List.length_replicate ..)
    simp only [deref, Res.ok_bind, e]
    exact Does.lift hR _

theorem fromBase58_does (hR : Counts R) (cs : Bool) (str : List Byte) (n : Nat) (buf : List Byte)
    (hs : ∀ s1 k s2 z size, Base58.skipSpaces cs str 0 = .ok (s1, k) → Base58.countOnes s1 0 = .ok (s2, z) →
      Base58.workSize ((n : Int) - k - z) = .ok size → Serves R g size) :
    Does R (fromBase58 g cs str n buf) (Base58.fromBase58 cs str n buf) := by
  unfold fromBase58 Base58.fromBase58
  refine Does.liftBind hR fun p hp => ?_
  refine Does.liftBind hR fun q hq => ?_
  dsimp only
  split
  · exact Does.lift hR _
  · refine Does.liftBind hR fun size hsz => ?_
    refine Does.declare hR (hs p.1 p.2 q.1 q.2 size hp hq hsz) ?_
    have e := memset_whole (List.replicate size 0xAA#8) _ (List.length_replicate ..)
    simp only [deref, Res.ok_bind, e]
    exact Does.lift hR _

theorem toBase58Check_does (hR : Counts R) (host : Host) (buf : List Byte) (n : Nat) (pre : List Byte) (pn : Nat) (str : List Byte)
    (hs : ∀ z, z ≤ n + pn + 4 → Serves R g ((n + pn + 4 - z) * 138 / 100 + 1)) (hs' : Serves R g (n + pn + 4)) :
    Does R (toBase58Check g host buf n pre pn str) (Base58Check.toBase58Check host buf n pre pn str) := by
  have hz : ∀ (l : List Byte) (m p z : Nat), Base58.skipZeroes l m p = .ok z → z ≤ p + m := by
    intro l m
    induction m with
    | zero => intro p z h; injection h with h; omega
    | succ m ih =>
      intro p z h
      rw [Base58.skipZeroes] at h
      cases hr : rd l p with
      | ub => rw [hr] at h; cases h
      | abort => rw [hr] at h; cases h
      | ok b =>
        rw [hr, Res.ok_bind] at h
        split at h
        · have := ih (p + 1) z h; omega
        · injection h with h; omega
  unfold toBase58Check Base58Check.toBase58Check
  refine Does.declare hR hs' ?_
  refine Does.skip (a := List.replicate (n + pn + 4) 0xAA#8) rfl ?_
  refine Does.liftBind hR fun b1 _ => ?_
  refine Does.liftBind hR fun b2 _ => ?_
  refine Does.liftBind hR fun h3 _ => ?_
  refine Does.liftBind hR fun b4 _ => ?_
  exact toBase58_does hR _ _ _ fun z h => hs z (by have := hz _ _ _ _ h; omega)

theorem fromBase58Check_does (hR : Counts R) (host : Host) (cs : Bool) (str : List Byte) (n : Nat) (buf : List Byte)
    (h : ∀ buf, Does R (fromBase58 g cs str n buf) (Base58.fromBase58 cs str n buf)) :
    Does R (fromBase58Check g host cs str n buf) (Base58Check.fromBase58Check host cs str n buf) := by
  unfold fromBase58Check Base58Check.fromBase58Check
  refine Does.bind hR (h buf) fun p _ => ?_
  dsimp only
  split
  · exact Does.pure hR _
  · refine Does.liftBind hR fun a _ => ?_
    refine Does.liftBind hR fun b _ => ?_
    split <;> exact Does.pure hR _

end OutOfMemory
