import Verif.Lemmas.LeakageCodecTells
import Verif.Spec.BaseN

/-! What is seen of the Base64 and Base32 functions apart from the look-ups in their tables. -/
namespace Leakage

/-- Two runs look the same apart from the accesses to a table, and their results are related. -/
def Alike {α β : Type} (tb : String) (p : Leak α) (q : Leak β) (R : α → β → Prop) : Prop :=
  ∀ a t b t', p = .ok a t → q = .ok b t' → besides tb t = besides tb t' ∧ R a b

section
variable {α β γ δ : Type} {tb : String}

theorem alike_bind {p : Leak α} {q : Leak β} {k : α → Leak γ} {k' : β → Leak δ} {R : α → β → Prop} {S : γ → δ → Prop} (hp : Alike tb p q R)
    (hk : ∀ a b, R a b → Alike tb (k a) (k' b) S) : Alike tb (p >>= k) (q >>= k') S := by
  intro c s d s' h h'
  obtain ⟨a, t1, t2, h1, h2, rfl⟩ := bind_inv h
  obtain ⟨b, t1', t2', h1', h2', rfl⟩ := bind_inv h'
  obtain ⟨e1, r⟩ := hp _ _ _ _ h1 h1'
  obtain ⟨e2, r2⟩ := hk a b r _ _ _ _ h2 h2'
  refine ⟨?_, r2⟩
  unfold besides at e1 e2 ⊢
  rw [List.filter_append, List.filter_append, e1, e2]

theorem alike_refl (p : Leak α) : Alike tb p p (· = ·) := by
  intro a t b t' h h'
  obtain ⟨e1, e2⟩ := ok_inj (h.symm.trans h')
  exact ⟨by rw [e2], e1⟩

theorem alike_same {p : Leak α} {k : α → Leak γ} {k' : α → Leak δ} {S : γ → δ → Prop} (hk : ∀ a, Alike tb (k a) (k' a) S) :
    Alike tb (p >>= k) (p >>= k') S :=
  alike_bind (alike_refl p) (fun a b e => by subst e; exact hk a)

theorem alike_pure {a : α} {b : β} {R : α → β → Prop} (h : R a b) : Alike tb (pure a : Leak α) (pure b) R := by
  intro a' t b' t' h1 h2
  cases h1; cases h2
  exact ⟨rfl, h⟩

theorem alike_seen {t t' : List Ev} {r : Res α} {r' : Res β} {R : α → β → Prop} (ht : besides tb t = besides tb t')
    (h : ∀ a b, r = .ok a → r' = .ok b → R a b) : Alike tb (seen t r) (seen t' r') R := by
  intro a s b s' h1 h2
  cases r with
  | ok x =>
    cases r' with
    | ok y =>
      obtain ⟨rfl, rfl⟩ := ok_inj (show Leak.ok x t = Leak.ok a s from h1)
      obtain ⟨rfl, rfl⟩ := ok_inj (show Leak.ok y t' = Leak.ok b s' from h2)
      exact ⟨ht, h _ _ rfl rfl⟩
    | ub => cases h2
    | abort => cases h2
  | ub => cases h1
  | abort => cases h1

theorem alike_ub {q : Leak β} {R : α → β → Prop} : Alike tb (.ub : Leak α) q R := by intro a t b t' h; cases h
theorem alike_ub' {p : Leak α} {R : α → β → Prop} : Alike tb p (.ub : Leak β) R := by intro a t b t' _ h; cases h

theorem alike_ite {P : Prop} [Decidable P] {p1 p2 : Leak α} {q1 q2 : Leak β} {R : α → β → Prop}
    (h1 : P → Alike tb p1 q1 R) (h2 : ¬ P → Alike tb p2 q2 R) : Alike tb (if P then p1 else p2) (if P then q1 else q2) R := by
  by_cases hp : P
  · rw [if_pos hp, if_pos hp]; exact h1 hp
  · rw [if_neg hp, if_neg hp]; exact h2 hp

theorem alike_mono {p : Leak α} {q : Leak β} {R S : α → β → Prop} (hp : Alike tb p q R) (h : ∀ a b, R a b → S a b) : Alike tb p q S :=
  fun a t b t' h1 h2 => ⟨(hp a t b t' h1 h2).1, h a b (hp a t b t' h1 h2).2⟩

theorem alike_rdL (o : String) (b i : Nat) (x y : List Byte) :
    Alike tb (rdL ⟨o, b, x⟩ i) (rdL ⟨o, b, y⟩ i) (fun u v => x[i]? = some u ∧ y[i]? = some v) :=
  alike_seen rfl (fun _ _ h1 h2 => ⟨(rd_inj_len h1).2, (rd_inj_len h2).2⟩)

theorem alike_lookL {σ : Type} (tbl : List σ) (i j : Nat) :
    Alike tb (lookL tb 1 tbl i) (lookL tb 1 tbl j) (fun u v => tbl[i]? = some u ∧ tbl[j]? = some v) :=
  alike_seen (by simp [besides, notTable]) (fun _ _ h1 h2 => ⟨(rd_inj_len h1).2, (rd_inj_len h2).2⟩)

theorem alike_wrL (o : String) (b n : Nat) (x y : List Byte) (u v : Byte) : Alike tb (wrL o b x n u) (wrL o b y n v) (fun _ _ => True) :=
  alike_seen rfl (fun _ _ _ _ => trivial)

theorem alike_for {σ τ : Type} {f : Nat → σ → Leak σ} {g : Nat → τ → Leak τ} : ∀ (k i : Nat) (s : σ) (s' : τ),
    (∀ j s s', i ≤ j → j < i + k → Alike tb (f j s) (g j s') (fun _ _ => True)) → Alike tb (forL f i k s) (forL g i k s') (fun _ _ => True)
  | 0, i, s, s', _ => by
    unfold forL
    exact alike_same (fun _ => alike_pure trivial)
  | k+1, i, s, s', hf => by
    unfold forL
    exact alike_same (fun _ => alike_bind (hf i s s' (Nat.le_refl _) (by omega)) (fun a b _ =>
      alike_for k (i + 1) a b (fun j s s' h1 h2 => hf j s s' (by omega) (by omega))))

/-- Both go on. -/
def Goes {σ τ ρ π : Type} : Step σ ρ → Step τ π → Prop
  | .next _, .next _ => True
  | _, _ => False

theorem alike_forB {σ τ ρ π : Type} {f : Nat → σ → Leak (Step σ ρ)} {g : Nat → τ → Leak (Step τ π)} : ∀ (k i : Nat) (s : σ) (s' : τ),
    (∀ j s s', i ≤ j → j < i + k → Alike tb (f j s) (g j s') Goes) → Alike tb (forBL f i k s) (forBL g i k s') Goes
  | 0, i, s, s', _ => by
    unfold forBL
    exact alike_same (fun _ => alike_pure trivial)
  | k+1, i, s, s', hf => by
    unfold forBL
    refine alike_same (fun _ => alike_bind (hf i s s' (Nat.le_refl _) (by omega)) (fun a b h => ?_))
    cases a with
    | next a =>
      cases b with
      | next b => exact alike_forB k (i + 1) a b (fun j s s' h1 h2 => hf j s s' (by omega) (by omega))
      | stop b => exact absurd h id
    | stop a => exact absurd h id
end

/-! ### Writers -/

/-- The table of the Base64 writers. -/
def enc64Table (url : Bool) : String := if url then "BASE64_URLSAFE_ENCODE" else "BASE64_STANDARD_ENCODE"
/-- The table of the Base64 readers. -/
def dec64Table (url : Bool) : String := if url then "BASE64_URLSAFE_DECODE" else "BASE64_STANDARD_DECODE"

theorem put64_alike {α β : Type} (url : Bool) (n : Nat) (x y : List Byte) (u v : Byte) {k : List Byte → Leak α} {k' : List Byte → Leak β}
    {R : α → β → Prop} (hk : ∀ a b, Alike (enc64Table url) (k a) (k' b) R) :
    Alike (enc64Table url) (enc64 url u >>= fun c => wrL "str" 0 x n c >>= k) (enc64 url v >>= fun c => wrL "str" 0 y n c >>= k') R :=
  alike_bind (alike_lookL _ _ _) (fun _ _ _ => alike_bind (alike_wrL _ _ _ _ _ _ _) (fun a b _ => hk a b))

theorem last64_alike (url : Bool) (n : Nat) (x y : List Byte) (u v : Byte) :
    Alike (enc64Table url) (enc64 url u >>= fun c => wrL "str" 0 x n c) (enc64 url v >>= fun c => wrL "str" 0 y n c) (fun _ _ => True) :=
  alike_bind (alike_lookL _ _ _) (fun _ _ _ => alike_wrL _ _ _ _ _ _ _)

theorem toBase64Impl_alike (url : Bool) (o : String) (x y s s' : List Byte) (n : Nat) :
    Alike (enc64Table url) (toBase64Impl ⟨o, 0, x⟩ n s url) (toBase64Impl ⟨o, 0, y⟩ n s' url) (fun _ _ => True) := by
  unfold toBase64Impl
  refine alike_same (fun _ => alike_bind (alike_for _ _ _ _ (fun j s s' _ _ => ?_)) (fun s s' _ => ?_))
  · unfold enc64Body
    refine alike_bind (alike_rdL _ _ _ _ _) (fun _ _ _ => ?_)
    refine alike_bind (alike_rdL _ _ _ _ _) (fun _ _ _ => ?_)
    refine alike_bind (alike_rdL _ _ _ _ _) (fun _ _ _ => ?_)
    refine put64_alike url _ _ _ _ _ (fun s s' => ?_)
    refine put64_alike url _ _ _ _ _ (fun s s' => ?_)
    refine put64_alike url _ _ _ _ _ (fun s s' => ?_)
    exact last64_alike url _ _ _ _ _
  · unfold enc64Tail
    refine alike_same (fun _ => alike_ite (fun _ => ?_) (fun _ => alike_pure trivial))
    refine alike_bind (alike_rdL _ _ _ _ _) (fun _ _ _ => ?_)
    refine put64_alike url _ _ _ _ _ (fun s s' => alike_same (fun _ => alike_ite (fun _ => ?_) (fun _ => ?_)))
    · refine alike_bind (alike_rdL _ _ _ _ _) (fun _ _ _ => ?_)
      refine put64_alike url _ _ _ _ _ (fun s s' => ?_)
      refine put64_alike url _ _ _ _ _ (fun s s' => alike_same (fun _ => alike_ite (fun _ => ?_) (fun _ => alike_pure trivial)))
      exact alike_wrL _ _ _ _ _ _ _
    · refine put64_alike url _ _ _ _ _ (fun s s' => alike_same (fun _ => alike_ite (fun _ => ?_) (fun _ => alike_pure trivial)))
      exact alike_bind (alike_wrL _ _ _ _ _ _ _) (fun _ _ _ => alike_wrL _ _ _ _ _ _ _)

/-- The table of the Base32 writers. -/
def enc32Table (raw : Bool) : String := if raw then "BASE32_ENCODE_RAW" else "BASE32_ENCODE"
/-- The table of the Base32 readers. -/
def dec32Table (raw : Bool) : String := if raw then "BASE32_DECODE_RAW" else "BASE32_DECODE"

theorem puts32_alike (raw : Bool) (o : String) (b : Nat) : ∀ (l l' x y : List Byte) (p : Nat), l.length = l'.length →
    Alike (enc32Table raw) (puts32 raw o b x p l) (puts32 raw o b y p l') (fun _ _ => True)
  | [], [], x, y, p, _ => by unfold puts32; exact alike_pure trivial
  | [], _ :: _, _, _, _, hl => by cases hl
  | _ :: _, [], _, _, _, hl => by cases hl
  | u :: l, v :: l', x, y, p, hl => by
    unfold puts32
    exact alike_bind (alike_lookL _ _ _) (fun _ _ _ => alike_bind (alike_wrL _ _ _ _ _ _ _) (fun s s' _ =>
      puts32_alike raw o b l l' s s' (p + 1) (Nat.succ.inj hl)))

theorem wrsL_alike {tb : String} (o : String) (b : Nat) : ∀ (l l' x y : List Byte) (p : Nat), l.length = l'.length →
    Alike tb (wrsL o b x p l) (wrsL o b y p l') (fun _ _ => True)
  | [], [], x, y, p, _ => by unfold wrsL; exact alike_pure trivial
  | [], _ :: _, _, _, _, hl => by cases hl
  | _ :: _, [], _, _, _, hl => by cases hl
  | u :: l, v :: l', x, y, p, hl => by
    unfold wrsL
    exact alike_bind (alike_wrL _ _ _ _ _ _ _) (fun s s' _ => wrsL_alike o b l l' s s' (p + 1) (Nat.succ.inj hl))

theorem put32Tail_alike (raw : Bool) (o : String) (b : Nat) (x y : List Byte) (p : Nat) (l l' : List Byte) (hl : l.length = l'.length) :
    Alike (enc32Table raw) (put32Tail raw o b x p l) (put32Tail raw o b y p l') (fun _ _ => True) := by
  unfold put32Tail
  refine alike_bind (puts32_alike raw o b l l' x y p hl) (fun _ _ _ => ?_)
  refine alike_same (fun _ => alike_ite (fun _ => ?_) (fun _ => alike_pure trivial))
  rw [hl]
  exact alike_bind (wrsL_alike o b _ _ _ _ _ rfl) (fun _ _ _ => alike_pure trivial)

theorem toBase32Impl_alike (raw : Bool) (i o : String) (b : Nat) (x y s s' : List Byte) (n : Nat) :
    Alike (enc32Table raw) (toBase32Impl ⟨i, 0, x⟩ n o b s raw) (toBase32Impl ⟨i, 0, y⟩ n o b s' raw) (fun _ _ => True) := by
  unfold toBase32Impl
  refine alike_same (fun _ => alike_bind (alike_for _ _ _ _ (fun j s s' _ _ => ?_)) (fun s s' _ => ?_))
  · unfold enc32Body
    refine alike_bind (alike_rdL _ _ _ _ _) (fun _ _ _ => ?_)
    refine alike_bind (alike_rdL _ _ _ _ _) (fun _ _ _ => ?_)
    refine alike_bind (alike_rdL _ _ _ _ _) (fun _ _ _ => ?_)
    refine alike_bind (alike_rdL _ _ _ _ _) (fun _ _ _ => ?_)
    refine alike_bind (alike_rdL _ _ _ _ _) (fun _ _ _ => ?_)
    exact puts32_alike raw o b _ _ _ _ _ rfl
  · refine alike_bind (R := fun _ _ => True) ?_ (fun _ _ _ => alike_pure trivial)
    unfold enc32Tail
    refine alike_same (fun _ => alike_ite (fun _ => ?_) (fun _ => alike_ite (fun _ => ?_) (fun _ => alike_ite (fun _ => ?_) (fun _ =>
      alike_ite (fun _ => ?_) (fun _ => alike_pure trivial)))))
    · refine alike_bind (alike_rdL _ _ _ _ _) (fun _ _ _ => ?_)
      exact put32Tail_alike raw o b _ _ _ _ _ rfl
    · refine alike_bind (alike_rdL _ _ _ _ _) (fun _ _ _ => ?_)
      refine alike_bind (alike_rdL _ _ _ _ _) (fun _ _ _ => ?_)
      exact put32Tail_alike raw o b _ _ _ _ _ rfl
    · refine alike_bind (alike_rdL _ _ _ _ _) (fun _ _ _ => ?_)
      refine alike_bind (alike_rdL _ _ _ _ _) (fun _ _ _ => ?_)
      refine alike_bind (alike_rdL _ _ _ _ _) (fun _ _ _ => ?_)
      exact put32Tail_alike raw o b _ _ _ _ _ rfl
    · refine alike_bind (alike_rdL _ _ _ _ _) (fun _ _ _ => ?_)
      refine alike_bind (alike_rdL _ _ _ _ _) (fun _ _ _ => ?_)
      refine alike_bind (alike_rdL _ _ _ _ _) (fun _ _ _ => ?_)
      refine alike_bind (alike_rdL _ _ _ _ _) (fun _ _ _ => ?_)
      exact put32Tail_alike raw o b _ _ _ _ _ rfl

/-! ### Readers of texts without illegal characters -/

theorem value64 : ∀ (url : Bool) (c v : Byte), Base64Spec.value? url c ≠ none → (Base64.decodeStr url)[c.toNat]? = some v → v ≠ 0xFF := by
  have h : ∀ (url : Bool) (c : Byte), Base64Spec.value? url c ≠ none → (Base64.decodeStr url)[c.toNat]? ≠ some 0xFF#8 := by decide +kernel
  intro url c v h1 h2 e
  exact h url c h1 (by rw [h2, e]; rfl)

/-- All characters before `n` are legal. -/
def Legal64 (url : Bool) (n : Nat) (x : List Byte) : Prop := ∀ i c, i < n → x[i]? = some c → Base64Spec.value? url c ≠ none

theorem dec64_alike {α β : Type} (url : Bool) (o : String) (n i : Nat) (x y : List Byte) (hx : Legal64 url n x) (hy : Legal64 url n y) (hi : i < n)
    {k : Byte → Leak α} {k' : Byte → Leak β} {R : α → β → Prop}
    (hk : ∀ u v, u ≠ 0xFF → v ≠ 0xFF → Alike (dec64Table url) (k u) (k' v) R) :
    Alike (dec64Table url) (rdL ⟨o, 0, x⟩ i >>= fun c => dec64 url c >>= k) (rdL ⟨o, 0, y⟩ i >>= fun c => dec64 url c >>= k') R := by
  refine alike_bind (alike_rdL _ _ _ _ _) (fun a b h => ?_)
  exact alike_bind (alike_lookL _ _ _) (fun u v h' => hk u v (value64 url a u (hx i a hi h.1) h'.1) (value64 url b v (hy i b hi h.2) h'.2))

theorem fromBase64Impl_alike (url : Bool) (o : String) (x y s s' : List Byte) (n : Nat) (hx : Legal64 url n x) (hy : Legal64 url n y) :
    Alike (dec64Table url) (fromBase64Impl ⟨o, 0, x⟩ n s url) (fromBase64Impl ⟨o, 0, y⟩ n s' url) (fun _ _ => True) := by
  unfold fromBase64Impl
  refine alike_same (fun _ => alike_bind (alike_forB _ _ _ _ (fun j s s' _ hj => ?_)) (fun s s' h => ?_))
  · unfold dec64Body
    refine dec64_alike url o n _ x y hx hy (by omega) (fun b1 c1 h1 g1 => ?_)
    refine dec64_alike url o n _ x y hx hy (by omega) (fun b2 c2 h2 g2 => ?_)
    refine dec64_alike url o n _ x y hx hy (by omega) (fun b3 c3 h3 g3 => ?_)
    refine dec64_alike url o n _ x y hx hy (by omega) (fun b4 c4 h4 g4 => ?_)
    simp only [h1, g1, h2, g2, h3, g3, h4, g4, decide_false, or_self, if_false]
    refine alike_same (fun _ => ?_)
    refine alike_bind (alike_wrL _ _ _ _ _ _ _) (fun _ _ _ => ?_)
    refine alike_bind (alike_wrL _ _ _ _ _ _ _) (fun _ _ _ => ?_)
    refine alike_bind (alike_wrL _ _ _ _ _ _ _) (fun _ _ _ => ?_)
    exact alike_pure trivial
  · cases s with
    | stop s => exact absurd h id
    | next s =>
      cases s' with
      | stop s' => exact absurd h id
      | next s' =>
        simp only []
        unfold dec64Tail
        refine alike_same (fun _ => alike_ite (fun e => ?_) (fun _ => alike_ite (fun e => ?_) (fun _ => alike_pure trivial)))
        · refine dec64_alike url o n _ x y hx hy (by omega) (fun b1 c1 h1 g1 => ?_)
          refine dec64_alike url o n _ x y hx hy (by omega) (fun b2 c2 h2 g2 => ?_)
          simp only [h1, g1, h2, g2, decide_false, or_self, if_false]
          refine alike_same (fun _ => ?_)
          exact alike_bind (alike_wrL _ _ _ _ _ _ _) (fun _ _ _ => alike_pure trivial)
        · refine dec64_alike url o n _ x y hx hy (by omega) (fun b1 c1 h1 g1 => ?_)
          refine dec64_alike url o n _ x y hx hy (by omega) (fun b2 c2 h2 g2 => ?_)
          refine dec64_alike url o n _ x y hx hy (by omega) (fun b3 c3 h3 g3 => ?_)
          simp only [h1, g1, h2, g2, h3, g3, decide_false, or_self, if_false]
          refine alike_same (fun _ => ?_)
          refine alike_bind (alike_wrL _ _ _ _ _ _ _) (fun _ _ _ => ?_)
          exact alike_bind (alike_wrL _ _ _ _ _ _ _) (fun _ _ _ => alike_pure trivial)

/-- What is seen of the test for a padding character. -/
def padT (o : String) (n : Nat) (b : Bool) : List Ev := if n > 0 then [.branch true, .load o (n - 1) 1, .branch b] else [.branch false]

theorem endsInPad_seen (o : String) (x : List Byte) (n : Nat) (b : Bool) (t : List Ev) (h : endsInPad ⟨o, 0, x⟩ n = .ok b t) :
    t = padT o n b ∧ (b = true → 0 < n) := by
  unfold endsInPad at h
  obtain ⟨_, t1, t2, h1, h2, rfl⟩ := bind_inv h
  obtain ⟨-, rfl⟩ := ok_inj h1
  by_cases h0 : n > 0
  · rw [if_pos h0] at h2
    obtain ⟨c, t3, t4, h3, h4, rfl⟩ := bind_inv h2
    obtain ⟨_, t5, t6, h5, h6, rfl⟩ := bind_inv h4
    obtain ⟨-, rfl⟩ := ok_inj h5
    obtain ⟨rfl, rfl⟩ := ok_inj h6
    unfold rdL at h3
    cases hr : rd x (n - 1) with
    | ok d =>
      rw [hr] at h3
      obtain ⟨rfl, rfl⟩ := ok_inj h3
      exact ⟨by simp [padT, h0], fun _ => h0⟩
    | ub => rw [hr] at h3; cases h3
    | abort => rw [hr] at h3; cases h3
  · rw [if_neg h0] at h2
    obtain ⟨rfl, rfl⟩ := ok_inj h2
    exact ⟨by simp [padT, h0], fun h => by cases h⟩

theorem stripLen_seen (o : String) (x : List Byte) (n k : Nat) (t : List Ev) (h : stripLen ⟨o, 0, x⟩ n = .ok k t) :
    (k = n ∧ t = padT o n false) ∨ (0 < n ∧ k = n - 1 ∧ t = padT o n true ++ padT o (n - 1) false) ∨
    (1 < n ∧ k = n - 2 ∧ t = padT o n true ++ padT o (n - 1) true) := by
  unfold stripLen at h
  obtain ⟨p, t1, t2, h1, h2, rfl⟩ := bind_inv h
  obtain ⟨rfl, hp⟩ := endsInPad_seen o x n p t1 h1
  cases p with
  | false =>
    obtain ⟨rfl, rfl⟩ := ok_inj h2
    exact .inl ⟨rfl, by simp⟩
  | true =>
    obtain ⟨q, t3, t4, h3, h4, rfl⟩ := bind_inv h2
    obtain ⟨rfl, hq⟩ := endsInPad_seen o x (n - 1) q t3 h3
    have := hp rfl
    cases q with
    | false =>
      obtain ⟨rfl, rfl⟩ := ok_inj h4
      exact .inr (.inl ⟨this, rfl, by simp⟩)
    | true =>
      have := hq rfl
      obtain ⟨rfl, rfl⟩ := ok_inj h4
      exact .inr (.inr ⟨by omega, by omega, by simp⟩)

theorem fromBase64_alike (o : String) (x y s s' : List Byte) (n k : Nat) (hkx : Base64.stripLen x n = .ok k) (hky : Base64.stripLen y n = .ok k)
    (hx : Legal64 false k x) (hy : Legal64 false k y) :
    Alike (dec64Table false) (fromBase64 ⟨o, 0, x⟩ n s) (fromBase64 ⟨o, 0, y⟩ n s') (fun _ _ => True) := by
  unfold fromBase64
  refine alike_bind (R := fun a b => a = k ∧ b = k) ?_ (fun a b h => ?_)
  · intro a t b t' h1 h2
    obtain ⟨t1, g1, -⟩ := stripLen_costs ⟨o, 0, x⟩ n k hkx
    obtain ⟨t2, g2, -⟩ := stripLen_costs ⟨o, 0, y⟩ n k hky
    obtain ⟨e1, e2⟩ := ok_inj (h1.symm.trans g1)
    obtain ⟨e3, e4⟩ := ok_inj (h2.symm.trans g2)
    refine ⟨?_, e1, e3⟩
    rw [e1] at h1; rw [e3] at h2
    rcases stripLen_seen o x n k t h1 with ⟨a1, a2⟩ | ⟨a0, a1, a2⟩ | ⟨a0, a1, a2⟩ <;>
      rcases stripLen_seen o y n k t' h2 with ⟨b1, b2⟩ | ⟨b0, b1, b2⟩ | ⟨b0, b1, b2⟩ <;>
      first | (exfalso; omega) | (rw [a2, b2])
  · rw [h.1, h.2]
    exact fromBase64Impl_alike false o x y s s' k hx hy

theorem strchr_alike (tb : String) (o : String) (c d : Byte) (hd : d = c ∨ d = 0#8) (post post' : List Byte) : ∀ (x y : List Byte) (p i : Nat),
    x.length = y.length → (∀ b ∈ x, b ≠ c ∧ b ≠ 0#8) → (∀ b ∈ y, b ≠ c ∧ b ≠ 0#8) →
    Alike tb (strchrFromL o c p (x ++ d :: post) i) (strchrFromL o c p (y ++ d :: post') i)
      (fun r r' => r = r' ∧ (∀ e, r = some e → e = i + x.length) ∧ (d = c → r ≠ none))
  | [], [], p, i, _, _, _ => by
    rw [List.nil_append, List.nil_append, strchrFromL, strchrFromL]
    refine alike_same (fun _ => alike_same (fun _ => alike_ite (fun h => alike_pure ⟨rfl, fun e he => by cases he; rfl, fun _ h => by cases h⟩) (fun h => ?_)))
    have h0 : d = 0 := by rcases hd with h' | h'; exact absurd h' h; exact h'
    rw [if_pos h0, if_pos h0]
    exact alike_pure ⟨rfl, fun e he => by (cases he), fun h' => absurd h' h⟩
  | [], _ :: _, _, _, hl, _, _ => by cases hl
  | _ :: _, [], _, _, hl, _, _ => by cases hl
  | a :: x, b :: y, p, i, hl, hx, hy => by
    obtain ⟨a1, a2⟩ := hx a (by simp)
    obtain ⟨b1, b2⟩ := hy b (by simp)
    rw [List.cons_append, List.cons_append, strchrFromL, strchrFromL, if_neg a1, if_neg b1, if_neg (show ¬ a = 0 from a2),
      if_neg (show ¬ b = 0 from b2), decide_eq_false a1, decide_eq_false a2, decide_eq_false b1, decide_eq_false b2]
    refine alike_same (fun _ => alike_same (fun _ => ?_))
    refine alike_mono (strchr_alike tb o c d hd post post' x y (p + 1) (i + 1) (Nat.succ.inj hl) (fun b hb => hx b (List.mem_cons_of_mem _ hb))
      (fun b hb => hy b (List.mem_cons_of_mem _ hb))) (fun r r' h => ⟨h.1, fun e he => ?_, h.2.2⟩)
    rw [h.2.1 e he, List.length_cons]; omega

theorem value32 : ∀ (c v : Byte), Base32Spec.value? c ≠ none → (Base32.decodeStr false)[c.toNat]? = some v → v ≠ 0xFF#8 := by
  have h : ∀ (c : Byte), Base32Spec.value? c ≠ none → (Base32.decodeStr false)[c.toNat]? ≠ some 0xFF#8 := by decide +kernel
  intro c v h1 h2 e
  exact h c h1 (by rw [h2, e])

/-- All characters before `n` are legal. -/
def Legal32 (n : Nat) (x : List Byte) : Prop := ∀ i c, i < n → x[i]? = some c → Base32Spec.value? c ≠ none

theorem dec32_alike {α β : Type} (cs : Bool) (o : String) (n i : Nat) (x y : List Byte) (hx : Legal32 n x) (hy : Legal32 n y) (hi : i < n)
    {k : Byte → Leak α} {k' : Byte → Leak β} {R : α → β → Prop}
    (hk : ∀ u v, u ≠ 0xFF#8 → v ≠ 0xFF#8 → Alike "BASE32_DECODE" (k u) (k' v) R) :
    Alike "BASE32_DECODE" (dec32 cs false ⟨o, 0, x⟩ i >>= k) (dec32 cs false ⟨o, 0, y⟩ i >>= k') R := by
  refine alike_bind (R := fun u v => u ≠ 0xFF#8 ∧ v ≠ 0xFF#8) ?_ (fun u v h => hk u v h.1 h.2)
  unfold dec32
  refine alike_bind (alike_rdL _ _ _ _ _) (fun a b h => ?_)
  by_cases h1 : (cs && decide (a.toNat ≥ 128)) = true
  · rw [if_pos h1]; exact alike_ub
  rw [if_neg h1]
  by_cases h2 : (cs && decide (b.toNat ≥ 128)) = true
  · rw [if_pos h2]; exact alike_ub'
  rw [if_neg h2]
  exact alike_mono (alike_lookL _ _ _) (fun u v h' => ⟨value32 a u (hx i a hi h.1) h'.1, value32 b v (hy i b hi h.2) h'.2⟩)

theorem tail32_need (k u : Nat) (h : Base32.TAIL_TO_BYTES[k]? = some u) :
    (u > 0 → 2 ≤ k) ∧ (u > 1 → 4 ≤ k) ∧ (u > 2 → 5 ≤ k) ∧ (u > 3 → 7 ≤ k) := by
  have hall : ∀ k : Fin 8, ∀ u ∈ Base32.TAIL_TO_BYTES[k.val]?, (u > 0 → 2 ≤ k.val) ∧ (u > 1 → 4 ≤ k.val) ∧ (u > 2 → 5 ≤ k.val) ∧ (u > 3 → 7 ≤ k.val) := by
    decide +kernel
  have hk : k < 8 := by
    obtain ⟨hk, -⟩ := List.getElem?_eq_some_iff.1 h
    exact hk
  exact hall ⟨k, hk⟩ u h

theorem fromBase32_alike (cs : Bool) (x y post post' s s' : List Byte) (d : Byte) (hd : d = chr '=' ∨ d = 0#8) (n : Nat) (hl : x.length = y.length)
    (h0 : d = 0#8 → n = x.length) (hx : ∀ b ∈ x, Base32Spec.value? b ≠ none) (hy : ∀ b ∈ y, Base32Spec.value? b ≠ none) :
    Alike "BASE32_DECODE" (fromBase32 cs ⟨"str", 0, x ++ d :: post⟩ n s) (fromBase32 cs ⟨"str", 0, y ++ d :: post'⟩ n s') (fun _ _ => True) := by
  have plain : ∀ b : Byte, Base32Spec.value? b ≠ none → b ≠ chr '=' ∧ b ≠ 0#8 := by decide +kernel
  have legal : ∀ (z : List Byte) (q : List Byte), (∀ b ∈ z, Base32Spec.value? b ≠ none) → Legal32 z.length (z ++ q) := by
    intro z q hz i c hi hc
    rw [List.getElem?_append_left hi] at hc
    exact hz c (List.mem_of_getElem? hc)
  have hx' := legal x (d :: post) hx
  have hy' := legal y (d :: post') hy
  rw [← hl] at hy'
  unfold fromBase32 fromBase32Impl
  refine alike_bind (R := fun a b => a = x.length ∧ b = x.length) ?_ (fun a b h => ?_)
  · unfold strlen32
    refine alike_bind (strchr_alike _ _ _ d hd post post' x y 0 0 hl (fun b hb => plain b (hx b hb)) (fun b hb => plain b (hy b hb)))
      (fun r r' h => ?_)
    obtain ⟨e, h1, h2⟩ := h
    subst e
    refine alike_same (fun _ => ?_)
    cases r with
    | none =>
      have hd0 : d = 0#8 := by
        rcases hd with e | e
        · exact absurd rfl (h2 e)
        · exact e
      exact alike_pure ⟨h0 hd0, h0 hd0⟩
    | some e =>
      have := h1 e rfl
      exact alike_pure ⟨by omega, by omega⟩
  obtain ⟨rfl, rfl⟩ := h
  refine alike_same (fun _ => alike_bind (alike_forB _ _ _ _ (fun j s s' _ hj => ?_)) (fun s s' h => ?_))
  · unfold dec32Body
    refine dec32_alike cs _ _ _ _ _ hx' hy' (by omega) (fun b1 c1 h1 g1 => ?_)
    refine dec32_alike cs _ _ _ _ _ hx' hy' (by omega) (fun b2 c2 h2 g2 => ?_)
    refine dec32_alike cs _ _ _ _ _ hx' hy' (by omega) (fun b3 c3 h3 g3 => ?_)
    refine dec32_alike cs _ _ _ _ _ hx' hy' (by omega) (fun b4 c4 h4 g4 => ?_)
    refine dec32_alike cs _ _ _ _ _ hx' hy' (by omega) (fun b5 c5 h5 g5 => ?_)
    refine dec32_alike cs _ _ _ _ _ hx' hy' (by omega) (fun b6 c6 h6 g6 => ?_)
    refine dec32_alike cs _ _ _ _ _ hx' hy' (by omega) (fun b7 c7 h7 g7 => ?_)
    refine dec32_alike cs _ _ _ _ _ hx' hy' (by omega) (fun b8 c8 h8 g8 => ?_)
    simp only [h1, g1, h2, g2, h3, g3, h4, g4, h5, g5, h6, g6, h7, g7, h8, g8, decide_false, or_self, if_false]
    refine alike_same (fun _ => ?_)
    exact alike_bind (wrsL_alike _ _ _ _ _ _ _ rfl) (fun _ _ _ => alike_pure trivial)
  · cases s with
    | stop s => exact absurd h id
    | next s =>
      cases s' with
      | stop s' => exact absurd h id
      | next s' =>
        simp only []
        unfold dec32Tail
        refine alike_bind (alike_seen (R := fun u v => u = v ∧ Base32.TAIL_TO_BYTES[x.length % 8]? = some u) rfl
          (fun u v h1 h2 => ⟨Res.ok.inj (h1.symm.trans h2), (rd_inj_len h1).2⟩)) (fun u v e => ?_)
        obtain ⟨rfl, ht⟩ := e
        obtain ⟨l1, l2, l3, l4⟩ := tail32_need (x.length % 8) u ht
        refine alike_same (fun _ => alike_ite (fun q1 => ?_) (fun _ => alike_pure trivial))
        have l1 := l1 q1
        refine dec32_alike cs _ _ _ _ _ hx' hy' (by omega) (fun b1 c1 _ _ => ?_)
        refine dec32_alike cs _ _ _ _ _ hx' hy' (by omega) (fun b2 c2 _ _ => ?_)
        refine alike_bind (alike_wrL _ _ _ _ _ _ _) (fun _ _ _ => ?_)
        refine alike_same (fun _ => alike_ite (fun q2 => ?_) (fun _ => alike_pure trivial))
        have l2 := l2 q2
        refine dec32_alike cs _ _ _ _ _ hx' hy' (by omega) (fun b3 c3 _ _ => ?_)
        refine dec32_alike cs _ _ _ _ _ hx' hy' (by omega) (fun b4 c4 _ _ => ?_)
        refine alike_bind (alike_wrL _ _ _ _ _ _ _) (fun _ _ _ => ?_)
        refine alike_same (fun _ => alike_ite (fun q3 => ?_) (fun _ => alike_pure trivial))
        have l3 := l3 q3
        refine dec32_alike cs _ _ _ _ _ hx' hy' (by omega) (fun b5 c5 _ _ => ?_)
        refine alike_bind (alike_wrL _ _ _ _ _ _ _) (fun _ _ _ => ?_)
        refine alike_same (fun _ => alike_ite (fun q4 => ?_) (fun _ => alike_pure trivial))
        have l4 := l4 q4
        refine dec32_alike cs _ _ _ _ _ hx' hy' (by omega) (fun b6 c6 _ _ => ?_)
        refine dec32_alike cs _ _ _ _ _ hx' hy' (by omega) (fun b7 c7 _ _ => ?_)
        exact alike_bind (alike_wrL _ _ _ _ _ _ _) (fun _ _ _ => alike_pure trivial)

end Leakage
