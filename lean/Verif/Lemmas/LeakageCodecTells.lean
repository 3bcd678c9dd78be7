import Verif.Lemmas.LeakageCodec
import Verif.Lemmas.LeakageRead

/-! What two runs of the Base64 and Base32 functions that look the same have in common. -/
namespace Leakage

theorem tells_rdL (o : String) (b i : Nat) (x y : List Byte) : Tells (rdL ⟨o, b, x⟩ i) (rdL ⟨o, b, y⟩ i) (fun _ _ => True) :=
  tells_seen rfl (fun _ _ _ _ _ => trivial)

theorem tells_lookL {α : Type} (nm : String) (tbl : List α) (i j : Nat) : Tells (lookL nm 1 tbl i) (lookL nm 1 tbl j) (· = ·) :=
  tells_seen rfl (fun h a b h1 h2 => by
    have := seen_load_inj h
    rw [show i = j by omega, h2] at h1; cases h1; rfl)

theorem tells_wrL (o : String) (b n : Nat) (x y : List Byte) (v : Byte) (h : Agree n x y) :
    Tells (wrL o b x n v) (wrL o b y n v) (Agree (n + 1)) :=
  tells_seen rfl (fun _ _ _ h1 h2 => agree_wr h h1 h2)

theorem tells_for {σ τ : Type} {f : Nat → σ → Leak σ} {g : Nat → τ → Leak τ} {R : Nat → σ → τ → Prop}
    (hf : ∀ i s s', R i s s' → Tells (f i s) (g i s') (R (i + 1))) : ∀ (k i : Nat) (s : σ) (s' : τ), R i s s' →
    Tells (forL f i k s) (forL g i k s') (R (i + k))
  | 0, i, s, s', h => by
    unfold forL
    exact tells_same (fun _ => tells_pure h)
  | k+1, i, s, s', h => by
    unfold forL
    refine tells_same (fun _ => tells_bind (hf i s s' h) (fun a b hab => ?_))
    have := tells_for hf k (i + 1) a b hab
    rwa [show i + 1 + k = i + (k + 1) by omega] at this

/-- How two runs of a loop's body end. -/
def StepRel {σ τ ρ π : Type} (R : σ → τ → Prop) (S : ρ → π → Prop) : Step σ ρ → Step τ π → Prop
  | .next s, .next s' => R s s'
  | .stop r, .stop r' => S r r'
  | _, _ => False

theorem tells_forB {σ τ ρ π : Type} {f : Nat → σ → Leak (Step σ ρ)} {g : Nat → τ → Leak (Step τ π)} {R : Nat → σ → τ → Prop} {S : ρ → π → Prop}
    (hf : ∀ i s s', R i s s' → Tells (f i s) (g i s') (StepRel (R (i + 1)) S)) : ∀ (k i : Nat) (s : σ) (s' : τ), R i s s' →
    Tells (forBL f i k s) (forBL g i k s') (StepRel (R (i + k)) S)
  | 0, i, s, s', h => by
    unfold forBL
    exact tells_same (fun _ => tells_pure h)
  | k+1, i, s, s', h => by
    unfold forBL
    refine tells_same (fun _ => tells_bind (hf i s s' h) (fun a b hab => ?_))
    cases a with
    | next a =>
      cases b with
      | next b =>
        have := tells_forB hf k (i + 1) a b hab
        rwa [show i + 1 + k = i + (k + 1) by omega] at this
      | stop b => exact absurd hab id
    | stop a =>
      cases b with
      | next b => exact absurd hab id
      | stop b => exact tells_pure hab

/-! ### Base64 -/

theorem tells_put64 {α β : Type} (url : Bool) (n : Nat) (x y : List Byte) (u v : Byte) (h : Agree n x y) {k : List Byte → Leak α} {k' : List Byte → Leak β}
    {R : α → β → Prop} (hk : ∀ a b, Agree (n + 1) a b → Tells (k a) (k' b) R) :
    Tells (enc64 url u >>= fun c => wrL "str" 0 x n c >>= k) (enc64 url v >>= fun c => wrL "str" 0 y n c >>= k') R := by
  refine tells_bind (tells_lookL _ _ _ _) (fun c d e => ?_)
  subst e
  exact tells_bind (tells_wrL _ _ _ _ _ _ h) hk

theorem tells_last64 (url : Bool) (n : Nat) (x y : List Byte) (u v : Byte) (h : Agree n x y) :
    Tells (enc64 url u >>= fun c => wrL "str" 0 x n c) (enc64 url v >>= fun c => wrL "str" 0 y n c) (Agree (n + 1)) := by
  refine tells_bind (tells_lookL _ _ _ _) (fun c d e => ?_)
  subst e
  exact tells_wrL _ _ _ _ _ _ h

theorem enc64Body_tells (url : Bool) (o : String) (x y : List Byte) (j : Nat) (s s' : List Byte) (h : Agree (4 * j) s s') :
    Tells (enc64Body url ⟨o, 0, x⟩ j s) (enc64Body url ⟨o, 0, y⟩ j s') (Agree (4 * (j + 1))) := by
  unfold enc64Body
  refine tells_bind (tells_rdL _ _ _ _ _) (fun a a' _ => ?_)
  refine tells_bind (tells_rdL _ _ _ _ _) (fun b b' _ => ?_)
  refine tells_bind (tells_rdL _ _ _ _ _) (fun c c' _ => ?_)
  refine tells_put64 url _ _ _ _ _ h (fun s s' h => ?_)
  refine tells_put64 url _ _ _ _ _ h (fun s s' h => ?_)
  refine tells_put64 url _ _ _ _ _ h (fun s s' h => ?_)
  exact tells_last64 url _ _ _ _ _ h

/-- How many characters the last group takes. -/
def tail64 (url : Bool) (k : Nat) : Nat := if k = 0 then 0 else if url then k + 1 else 4

theorem enc64Tail_tells (url : Bool) (o : String) (x y : List Byte) (n k : Nat) (hk : k < 3) (s s' : List Byte) (h : Agree (4 * n) s s') :
    Tells (enc64Tail url ⟨o, 0, x⟩ n k s) (enc64Tail url ⟨o, 0, y⟩ n k s') (Agree (4 * n + tail64 url k)) := by
  unfold enc64Tail
  refine tells_same (fun _ => ?_)
  refine tells_ite Iff.rfl (fun h0 _ => ?_) (fun h0 _ => ?_)
  · refine tells_bind (tells_rdL _ _ _ _ _) (fun a a' _ => ?_)
    refine tells_put64 url _ _ _ _ _ h (fun s s' h => ?_)
    refine tells_same (fun _ => ?_)
    refine tells_ite Iff.rfl (fun h2 _ => ?_) (fun h2 _ => ?_)
    · subst h2
      refine tells_bind (tells_rdL _ _ _ _ _) (fun b b' _ => ?_)
      refine tells_put64 url _ _ _ _ _ h (fun s s' h => ?_)
      refine tells_put64 url _ _ _ _ _ h (fun s s' h => ?_)
      refine tells_same (fun _ => ?_)
      cases url
      · exact tells_wrL _ _ _ _ _ _ h
      · exact tells_pure h
    · obtain rfl : k = 1 := by omega
      refine tells_put64 url _ _ _ _ _ h (fun s s' h => ?_)
      refine tells_same (fun _ => ?_)
      cases url
      · refine tells_bind (tells_wrL _ _ _ _ _ _ h) (fun s s' h => ?_)
        exact tells_wrL _ _ _ _ _ _ h
      · exact tells_pure h
  · obtain rfl : k = 0 := by omega
    exact tells_pure h

theorem toBase64Impl_tells (url : Bool) (o : String) (x y s s' : List Byte) (n : Nat) :
    Tells (toBase64Impl ⟨o, 0, x⟩ n s url) (toBase64Impl ⟨o, 0, y⟩ n s' url) (Agree (4 * (n / 3) + tail64 url (n % 3))) := by
  unfold toBase64Impl
  refine tells_same (fun _ => ?_)
  refine tells_bind (tells_for (R := fun j => Agree (4 * j)) (fun j s s' h => enc64Body_tells url o x y j s s' h) (n / 3) 0 s s'
    ⟨Nat.zero_le _, Nat.zero_le _, rfl⟩) (fun a b h => ?_)
  rw [Nat.zero_add] at h
  exact enc64Tail_tells url o x y (n / 3) (n % 3) (Nat.mod_lt _ (by decide)) a b h

theorem dec64_tells {α β : Type} (url : Bool) (o : String) (i : Nat) (x y : List Byte) {k : Byte → Leak α} {k' : Byte → Leak β}
    {R : α → β → Prop} (hk : ∀ v, Tells (k v) (k' v) R) :
    Tells (rdL ⟨o, 0, x⟩ i >>= fun c => dec64 url c >>= k) (rdL ⟨o, 0, y⟩ i >>= fun c => dec64 url c >>= k') R := by
  refine tells_bind (tells_rdL _ _ _ _ _) (fun a a' _ => ?_)
  refine tells_bind (tells_lookL _ _ _ _) (fun c d e => ?_)
  subst e
  exact hk c

/-- The results of two readers: as many bytes, and the same ones. -/
def SameOut (r r' : List Byte × Nat) : Prop := r.2 = r'.2 ∧ Agree r.2 r.1 r'.1

theorem dec64Body_tells (url : Bool) (o : String) (x y : List Byte) (j : Nat) (s s' : List Byte) (h : Agree (3 * j) s s') :
    Tells (dec64Body url ⟨o, 0, x⟩ j s) (dec64Body url ⟨o, 0, y⟩ j s') (StepRel (Agree (3 * (j + 1))) SameOut) := by
  unfold dec64Body
  refine dec64_tells url o _ x y (fun b1 => ?_)
  refine dec64_tells url o _ x y (fun b2 => ?_)
  refine dec64_tells url o _ x y (fun b3 => ?_)
  refine dec64_tells url o _ x y (fun b4 => ?_)
  refine tells_same (fun _ => ?_)
  refine tells_ite Iff.rfl (fun _ _ => tells_pure ⟨rfl, h⟩) (fun _ _ => ?_)
  refine tells_bind (tells_wrL _ _ _ _ _ _ h) (fun s s' h => ?_)
  refine tells_bind (tells_wrL _ _ _ _ _ _ h) (fun s s' h => ?_)
  refine tells_bind (tells_wrL _ _ _ _ _ _ h) (fun s s' h => ?_)
  exact tells_pure h

theorem dec64Tail_tells (url : Bool) (o : String) (x y : List Byte) (n k : Nat) (s s' : List Byte) (h : Agree (3 * n) s s') :
    Tells (dec64Tail url ⟨o, 0, x⟩ n k s) (dec64Tail url ⟨o, 0, y⟩ n k s') SameOut := by
  unfold dec64Tail
  refine tells_same (fun _ => ?_)
  refine tells_ite Iff.rfl (fun h0 _ => ?_) (fun h0 _ => ?_)
  · refine dec64_tells url o _ x y (fun b1 => ?_)
    refine dec64_tells url o _ x y (fun b2 => ?_)
    refine tells_same (fun _ => ?_)
    refine tells_ite Iff.rfl (fun _ _ => tells_pure ⟨rfl, h⟩) (fun _ _ => ?_)
    refine tells_bind (tells_wrL _ _ _ _ _ _ h) (fun s s' h => ?_)
    exact tells_pure ⟨rfl, h⟩
  refine tells_ite Iff.rfl (fun h0 _ => ?_) (fun h0 _ => tells_pure ⟨rfl, h⟩)
  refine dec64_tells url o _ x y (fun b1 => ?_)
  refine dec64_tells url o _ x y (fun b2 => ?_)
  refine dec64_tells url o _ x y (fun b3 => ?_)
  refine tells_same (fun _ => ?_)
  refine tells_ite Iff.rfl (fun _ _ => tells_pure ⟨rfl, h⟩) (fun _ _ => ?_)
  refine tells_bind (tells_wrL _ _ _ _ _ _ h) (fun s s' h => ?_)
  refine tells_bind (tells_wrL _ _ _ _ _ _ h) (fun s s' h => ?_)
  exact tells_pure ⟨rfl, h⟩

theorem fromBase64Impl_tells (url : Bool) (o : String) (x y s s' : List Byte) (n : Nat) :
    Tells (fromBase64Impl ⟨o, 0, x⟩ n s url) (fromBase64Impl ⟨o, 0, y⟩ n s' url) SameOut := by
  unfold fromBase64Impl
  refine tells_same (fun _ => ?_)
  refine tells_bind (tells_forB (R := fun j => Agree (3 * j)) (fun j s s' h => dec64Body_tells url o x y j s s' h) (n / 4) 0 s s'
    ⟨Nat.zero_le _, Nat.zero_le _, rfl⟩) (fun a b h => ?_)
  rw [Nat.zero_add] at h
  cases a with
  | next a =>
    cases b with
    | next b => exact dec64Tail_tells url o x y (n / 4) (n % 4) a b h
    | stop b => exact absurd h id
  | stop a =>
    cases b with
    | next b => exact absurd h id
    | stop b => exact tells_pure h

theorem endsInPad_tells (o : String) (x y : List Byte) (n : Nat) :
    Tells (endsInPad ⟨o, 0, x⟩ n) (endsInPad ⟨o, 0, y⟩ n) (· = ·) := by
  unfold endsInPad
  refine tells_same (fun _ => ?_)
  refine tells_ite Iff.rfl (fun _ _ => ?_) (fun _ _ => tells_pure rfl)
  refine tells_bind (tells_rdL _ _ _ _ _) (fun c d _ => ?_)
  refine tells_bind tells_branch (fun _ _ h => tells_pure ?_)
  exact h

theorem stripLen_tells (o : String) (x y : List Byte) (n : Nat) : Tells (stripLen ⟨o, 0, x⟩ n) (stripLen ⟨o, 0, y⟩ n) (· = ·) := by
  unfold stripLen
  refine tells_bind (endsInPad_tells o x y n) (fun p q e => ?_)
  subst e
  refine tells_ite Iff.rfl (fun _ _ => ?_) (fun _ _ => tells_pure rfl)
  refine tells_bind (endsInPad_tells o x y (n - 1)) (fun p q e => ?_)
  subst e
  exact tells_ite Iff.rfl (fun _ _ => tells_pure rfl) (fun _ _ => tells_pure rfl)

theorem fromBase64_tells (o : String) (x y s s' : List Byte) (n : Nat) :
    Tells (fromBase64 ⟨o, 0, x⟩ n s) (fromBase64 ⟨o, 0, y⟩ n s') SameOut := by
  unfold fromBase64
  refine tells_bind (stripLen_tells o x y n) (fun p q e => ?_)
  subst e
  exact fromBase64Impl_tells false o x y s s' p

/-! ### Base32 -/

theorem puts32_tells (raw : Bool) (o : String) (b : Nat) : ∀ (l l' : List Byte) (x y : List Byte) (p : Nat), l.length = l'.length → Agree p x y →
    Tells (puts32 raw o b x p l) (puts32 raw o b y p l') (Agree (p + l.length))
  | [], [], x, y, p, _, h => by unfold puts32; exact tells_pure h
  | [], _ :: _, _, _, _, hl, _ => by cases hl
  | _ :: _, [], _, _, _, hl, _ => by cases hl
  | u :: l, v :: l', x, y, p, hl, h => by
    unfold puts32
    refine tells_bind (tells_lookL _ _ _ _) (fun c d e => ?_)
    subst e
    refine tells_bind (tells_wrL _ _ _ _ _ _ h) (fun s s' h => ?_)
    have := puts32_tells raw o b l l' s s' (p + 1) (Nat.succ.inj hl) h
    rwa [show p + 1 + l.length = p + (u :: l).length by rw [List.length_cons]; omega] at this

theorem wrsL_tells (o : String) (b : Nat) : ∀ (l x y : List Byte) (p : Nat), Agree p x y →
    Tells (wrsL o b x p l) (wrsL o b y p l) (Agree (p + l.length))
  | [], x, y, p, h => by unfold wrsL; exact tells_pure h
  | u :: l, x, y, p, h => by
    unfold wrsL
    refine tells_bind (tells_wrL _ _ _ _ _ _ h) (fun s s' h => ?_)
    have := wrsL_tells o b l s s' (p + 1) h
    rwa [show p + 1 + l.length = p + (u :: l).length by rw [List.length_cons]; omega] at this

theorem enc32Body_tells (raw : Bool) (i o : String) (b : Nat) (x y : List Byte) (j : Nat) (s s' : List Byte) (h : Agree (8 * j) s s') :
    Tells (enc32Body raw ⟨i, 0, x⟩ o b j s) (enc32Body raw ⟨i, 0, y⟩ o b j s') (Agree (8 * (j + 1))) := by
  unfold enc32Body
  refine tells_bind (tells_rdL _ _ _ _ _) (fun _ _ _ => ?_)
  refine tells_bind (tells_rdL _ _ _ _ _) (fun _ _ _ => ?_)
  refine tells_bind (tells_rdL _ _ _ _ _) (fun _ _ _ => ?_)
  refine tells_bind (tells_rdL _ _ _ _ _) (fun _ _ _ => ?_)
  refine tells_bind (tells_rdL _ _ _ _ _) (fun _ _ _ => ?_)
  exact puts32_tells raw o b _ _ _ _ _ rfl h

/-- The results of two writers that began at `p`. -/
def SameFrom (p : Nat) (r r' : List Byte × Nat) : Prop := r.2 = r'.2 ∧ Agree (p + r.2) r.1 r'.1

theorem put32Tail_tells (raw : Bool) (o : String) (b : Nat) (x y : List Byte) (p : Nat) (l l' : List Byte) (hl : l.length = l'.length)
    (h8 : l.length ≤ 8) (h : Agree p x y) : Tells (put32Tail raw o b x p l) (put32Tail raw o b y p l') (SameFrom p) := by
  unfold put32Tail
  refine tells_bind (puts32_tells raw o b l l' x y p hl h) (fun s s' h => ?_)
  refine tells_same (fun _ => ?_)
  refine tells_ite Iff.rfl (fun _ _ => ?_) (fun _ _ => tells_pure ⟨hl, h⟩)
  rw [← hl]
  refine tells_bind (wrsL_tells o b _ _ _ _ h) (fun s s' h => tells_pure ⟨rfl, ?_⟩)
  rw [List.length_replicate] at h
  rwa [show p + l.length + (8 - l.length) = p + 8 by omega] at h

theorem enc32Tail_tells (raw : Bool) (i o : String) (b : Nat) (x y : List Byte) (n k : Nat) (s s' : List Byte) (h : Agree (8 * n) s s') :
    Tells (enc32Tail raw ⟨i, 0, x⟩ o b n k s) (enc32Tail raw ⟨i, 0, y⟩ o b n k s') (SameFrom (8 * n)) := by
  unfold enc32Tail
  refine tells_same (fun _ => ?_)
  refine tells_ite Iff.rfl (fun _ _ => ?_) (fun _ _ => ?_)
  · refine tells_bind (tells_rdL _ _ _ _ _) (fun _ _ _ => ?_)
    exact put32Tail_tells raw o b _ _ _ _ _ rfl (by simp) h
  refine tells_ite Iff.rfl (fun _ _ => ?_) (fun _ _ => ?_)
  · refine tells_bind (tells_rdL _ _ _ _ _) (fun _ _ _ => ?_)
    refine tells_bind (tells_rdL _ _ _ _ _) (fun _ _ _ => ?_)
    exact put32Tail_tells raw o b _ _ _ _ _ rfl (by simp) h
  refine tells_ite Iff.rfl (fun _ _ => ?_) (fun _ _ => ?_)
  · refine tells_bind (tells_rdL _ _ _ _ _) (fun _ _ _ => ?_)
    refine tells_bind (tells_rdL _ _ _ _ _) (fun _ _ _ => ?_)
    refine tells_bind (tells_rdL _ _ _ _ _) (fun _ _ _ => ?_)
    exact put32Tail_tells raw o b _ _ _ _ _ rfl (by simp) h
  refine tells_ite Iff.rfl (fun _ _ => ?_) (fun _ _ => tells_pure ⟨rfl, h⟩)
  refine tells_bind (tells_rdL _ _ _ _ _) (fun _ _ _ => ?_)
  refine tells_bind (tells_rdL _ _ _ _ _) (fun _ _ _ => ?_)
  refine tells_bind (tells_rdL _ _ _ _ _) (fun _ _ _ => ?_)
  refine tells_bind (tells_rdL _ _ _ _ _) (fun _ _ _ => ?_)
  exact put32Tail_tells raw o b _ _ _ _ _ rfl (by simp) h

theorem toBase32Impl_tells (raw : Bool) (i o : String) (b : Nat) (x y s s' : List Byte) (n : Nat) :
    Tells (toBase32Impl ⟨i, 0, x⟩ n o b s raw) (toBase32Impl ⟨i, 0, y⟩ n o b s' raw) SameOut := by
  unfold toBase32Impl
  refine tells_same (fun _ => ?_)
  refine tells_bind (tells_for (R := fun j => Agree (8 * j)) (fun j s s' h => enc32Body_tells raw i o b x y j s s' h) (n / 5) 0 s s'
    ⟨Nat.zero_le _, Nat.zero_le _, rfl⟩) (fun c d h => ?_)
  rw [Nat.zero_add] at h
  refine tells_bind (enc32Tail_tells raw i o b x y (n / 5) (n % 5) c d h) (fun r r' h => tells_pure ⟨?_, ?_⟩)
  · rw [h.1]
  · have := h.2
    rwa [Nat.mul_comm 8] at this

theorem dec32_tells {α β : Type} (cs raw : Bool) (o : String) (b i : Nat) (x y : List Byte) {k : Byte → Leak α} {k' : Byte → Leak β}
    {R : α → β → Prop} (hk : ∀ v, Tells (k v) (k' v) R) :
    Tells (dec32 cs raw ⟨o, b, x⟩ i >>= k) (dec32 cs raw ⟨o, b, y⟩ i >>= k') R := by
  refine tells_bind (R := (· = ·)) ?_ (fun c d e => by subst e; exact hk c)
  unfold dec32
  refine tells_bind (tells_rdL _ _ _ _ _) (fun c d _ => ?_)
  by_cases h : (cs && decide (c.toNat ≥ 128)) = true
  · rw [if_pos h]; exact tells_ub
  rw [if_neg h]
  by_cases h' : (cs && decide (d.toNat ≥ 128)) = true
  · rw [if_pos h']; exact tells_ub'
  rw [if_neg h']
  exact tells_lookL _ _ _ _

theorem dec32Body_tells (cs raw : Bool) (i o : String) (b c : Nat) (x y : List Byte) (j : Nat) (s s' : List Byte) (h : Agree (5 * j) s s') :
    Tells (dec32Body cs raw ⟨i, c, x⟩ o b j s) (dec32Body cs raw ⟨i, c, y⟩ o b j s') (StepRel (Agree (5 * (j + 1))) SameOut) := by
  unfold dec32Body
  refine dec32_tells cs raw i c _ x y (fun b1 => ?_)
  refine dec32_tells cs raw i c _ x y (fun b2 => ?_)
  refine dec32_tells cs raw i c _ x y (fun b3 => ?_)
  refine dec32_tells cs raw i c _ x y (fun b4 => ?_)
  refine dec32_tells cs raw i c _ x y (fun b5 => ?_)
  refine dec32_tells cs raw i c _ x y (fun b6 => ?_)
  refine dec32_tells cs raw i c _ x y (fun b7 => ?_)
  refine dec32_tells cs raw i c _ x y (fun b8 => ?_)
  refine tells_same (fun _ => ?_)
  refine tells_ite Iff.rfl (fun _ _ => tells_pure ⟨rfl, h⟩) (fun _ _ => ?_)
  refine tells_bind (wrsL_tells o b _ _ _ _ h) (fun s s' h => tells_pure ?_)
  exact h

theorem dec32Tail_tells (cs raw : Bool) (i o : String) (b c : Nat) (x y : List Byte) (n k : Nat) (s s' : List Byte) (h : Agree (5 * n) s s') :
    Tells (dec32Tail cs raw ⟨i, c, x⟩ o b n k s) (dec32Tail cs raw ⟨i, c, y⟩ o b n k s') SameOut := by
  unfold dec32Tail
  refine tells_same (fun tb => tells_same (fun _ => ?_))
  refine tells_ite Iff.rfl (fun _ _ => ?_) (fun _ _ => tells_pure ⟨rfl, h⟩)
  refine dec32_tells cs raw i c _ x y (fun b1 => ?_)
  refine dec32_tells cs raw i c _ x y (fun b2 => ?_)
  refine tells_bind (tells_wrL _ _ _ _ _ _ h) (fun s s' h => tells_same (fun _ => ?_))
  refine tells_ite Iff.rfl (fun _ _ => ?_) (fun _ _ => tells_pure ⟨rfl, h⟩)
  refine dec32_tells cs raw i c _ x y (fun b3 => ?_)
  refine dec32_tells cs raw i c _ x y (fun b4 => ?_)
  refine tells_bind (tells_wrL _ _ _ _ _ _ h) (fun s s' h => tells_same (fun _ => ?_))
  refine tells_ite Iff.rfl (fun _ _ => ?_) (fun _ _ => tells_pure ⟨rfl, h⟩)
  refine dec32_tells cs raw i c _ x y (fun b5 => ?_)
  refine tells_bind (tells_wrL _ _ _ _ _ _ h) (fun s s' h => tells_same (fun _ => ?_))
  refine tells_ite Iff.rfl (fun _ _ => ?_) (fun _ _ => tells_pure ⟨rfl, h⟩)
  refine dec32_tells cs raw i c _ x y (fun b6 => ?_)
  refine dec32_tells cs raw i c _ x y (fun b7 => ?_)
  refine tells_bind (tells_wrL _ _ _ _ _ _ h) (fun s s' h => tells_pure ⟨rfl, h⟩)

theorem branchOr2_tells {p q p' q' : Bool} :
    Tells (branchOr [p, q]) (branchOr [p', q']) (fun _ _ => p = p' ∧ (p = false → q = q')) := by
  intro a t b t' u u' h1 h2 e
  unfold branchOr at h1 h2
  obtain ⟨-, rfl⟩ := ok_inj h1
  obtain ⟨-, rfl⟩ := ok_inj h2
  cases p <;> cases p' <;> simp only [orT, if_true, List.cons_append, List.nil_append, List.cons.injEq, Ev.branch.injEq, reduceCtorEq, false_and,
    Bool.false_eq_true, if_false] at e
  · cases q <;> cases q' <;> simp [orT] at e ⊢
  · exact ⟨rfl, rfl, fun h => by cases h⟩

theorem strchrFromL_tells (o : String) (c : Byte) (hc : c ≠ 0#8) : ∀ (x y : List Byte) (p i : Nat),
    Tells (strchrFromL o c p x i) (strchrFromL o c p y i) (· = ·)
  | [], _, p, i => by rw [strchrFromL]; exact tells_ub
  | _ :: _, [], p, i => by rw [show strchrFromL o c p [] i = .ub from by rw [strchrFromL]]; exact tells_ub'
  | a :: x, b :: y, p, i => by
    rw [strchrFromL, strchrFromL]
    refine tells_bind (R := fun _ _ => True) (tells_seen rfl (fun _ _ _ _ _ => trivial)) (fun _ _ _ => ?_)
    refine tells_bind branchOr2_tells (fun _ _ h => ?_)
    have h1 := iff_of_decide h.1
    refine tells_ite h1 (fun _ _ => tells_pure rfl) (fun n1 _ => ?_)
    refine tells_ite (iff_of_decide (h.2 (decide_eq_false n1))) (fun _ _ => tells_pure rfl) (fun _ _ => ?_)
    exact strchrFromL_tells o c hc x y (p + 1) (i + 1)

theorem strlen32_tells (i : String) (c : Nat) (x y : List Byte) (n : Nat) : Tells (strlen32 ⟨i, c, x⟩ n) (strlen32 ⟨i, c, y⟩ n) (· = ·) := by
  unfold strlen32
  refine tells_bind (strchrFromL_tells i (chr '=') (by decide) x y c 0) (fun e e' h => ?_)
  subst h
  exact tells_refl _

theorem fromBase32Impl_tells (cs raw : Bool) (i o : String) (b c : Nat) (x y s s' : List Byte) (n : Nat) :
    Tells (fromBase32Impl cs ⟨i, c, x⟩ n o b s raw) (fromBase32Impl cs ⟨i, c, y⟩ n o b s' raw) SameOut := by
  unfold fromBase32Impl
  refine tells_bind (strlen32_tells i c x y n) (fun l _ e => ?_)
  subst e
  refine tells_same (fun _ => ?_)
  refine tells_bind (tells_forB (R := fun j => Agree (5 * j)) (fun j s s' h => dec32Body_tells cs raw i o b c x y j s s' h) (l / 8) 0 s s'
    ⟨Nat.zero_le _, Nat.zero_le _, rfl⟩) (fun p q h => ?_)
  rw [Nat.zero_add] at h
  cases p with
  | next p =>
    cases q with
    | next q => exact dec32Tail_tells cs raw i o b c x y (l / 8) (l % 8) p q h
    | stop q => exact absurd h id
  | stop p =>
    cases q with
    | next q => exact absurd h id
    | stop q => exact tells_pure h
end Leakage
