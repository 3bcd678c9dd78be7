import Verif.Model.Basic
import Verif.Spec.Basic


@[simp] theorem over_nil {α : Type} (out : List α) : over [] out = out := by simp [over]

theorem over_length {α : Type} (W out : List α) (h : W.length ≤ out.length) :
    (over W out).length = out.length := by simp [over]; omega

theorem rd_ok {α : Type} (m : List α) (i : Nat) (h : i < m.length) : rd m i = .ok m[i] := by
  simp [rd, h]

theorem rd_append_mid {α : Type} (p : List α) (b : α) (s : List α) (i : Nat) (h : i = p.length) :
    rd (p ++ b :: s) i = .ok b := by
  subst h; simp [rd]

theorem wr_over {α : Type} (W out : List α) (b : α) (i : Nat) (hi : i = W.length)
    (h : W.length < out.length) :
    wr (over W out) i b = .ok (over (W ++ [b]) out) := by
  subst hi
  have hd : out.drop W.length = out[W.length] :: out.drop (W.length + 1) :=
    List.drop_eq_getElem_cons h
  have h2 : 0 < out.length - W.length := by omega
  simp [wr, over, List.length_append, h2]
  rw [hd, List.set_cons_zero]

theorem forLoop_spec {σ : Type} (f : Nat → σ → Res σ) (P : Nat → σ → Prop) (k i : Nat) (s : σ)
    (h0 : P i s)
    (hs : ∀ j s, i ≤ j → j < i + k → P j s → ∃ s', f j s = .ok s' ∧ P (j+1) s') :
    ∃ s', forLoop f i k s = .ok s' ∧ P (i + k) s' := by
  induction k generalizing i s with
  | zero => exact ⟨s, rfl, h0⟩
  | succ k ih =>
    obtain ⟨s1, h1, p1⟩ := hs i s (Nat.le_refl _) (by omega) h0
    obtain ⟨s2, h2, p2⟩ := ih (i+1) s1 p1 (fun j s hj hk hp => hs j s (by omega) (by omega) hp)
    refine ⟨s2, ?_, ?_⟩
    · simp [forLoop, h1, h2]
    · rw [show i + (k+1) = i + 1 + k by omega]; exact p2

theorem forLoop_eq {σ : Type} (f : Nat → σ → Res σ) (g : Nat → σ) (k i : Nat)
    (hs : ∀ j, i ≤ j → j < i + k → f j (g j) = .ok (g (j+1))) :
    forLoop f i k (g i) = .ok (g (i + k)) := by
  obtain ⟨s', h, e⟩ := forLoop_spec f (fun j s => s = g j) k i (g i) rfl (by
    intro j s h1 h2 e; subst e; exact ⟨_, hs j h1 h2, rfl⟩)
  rw [h, e]

theorem memcpy_ok {α : Type} (dst : List α) (off : Nat) (src : List α) (n : Nat)
    (h1 : n ≤ src.length) (h2 : off + n ≤ dst.length) :
    memcpy dst off src n = .ok (dst.take off ++ src.take n ++ dst.drop (off + n)) := by
  simp [memcpy, h1, h2]

/-- Copying right behind what has been written so far. -/
theorem memcpy_over {α : Type} (W out src : List α) (off n : Nat) (ho : off = W.length)
    (h1 : n ≤ src.length) (h2 : W.length + n ≤ out.length) :
    memcpy (over W out) off src n = .ok (over (W ++ src.take n) out) := by
  subst ho
  rw [memcpy_ok _ _ _ _ h1 (by rw [over_length _ _ (by omega)]; exact h2)]
  simp [over, List.drop_append, Nat.min_eq_left h1]

/-- All 256 byte values: the form in which table facts are decided. -/
theorem byte_forall {P : Byte → Prop} (h : ∀ n : Fin 256, P (BitVec.ofFin n)) (b : Byte) : P b :=
  h b.toFin

theorem wrs_over {α : Type} (vs W out : List α) (p : Nat) (hp : p = W.length)
    (h : W.length + vs.length ≤ out.length) :
    wrs (over W out) p vs = .ok (over (W ++ vs) out) := by
  induction vs generalizing W p with
  | nil => simp [wrs]
  | cons v vs ih =>
    simp only [List.length_cons] at h
    rw [wrs, wr_over _ _ _ _ hp (by omega)]
    simp only [Res.ok_bind]
    rw [ih (W ++ [v]) (p+1) (by simp; omega) (by simp; omega)]
    simp

theorem lookups_ok {α : Type} (tbl : List α) (f : Nat → α) (N : Nat)
    (ht : ∀ n, n < N → rd tbl n = .ok (f n)) (bs : List Byte) (h : ∀ b ∈ bs, b.toNat < N) :
    lookups tbl bs = .ok (bs.map fun b => f b.toNat) := by
  induction bs with
  | nil => rfl
  | cons b bs ih =>
    rw [lookups, ht _ (h b (by simp)), ih (fun b hb => h b (by simp [hb]))]
    simp

/-- A string without `c` and without NUL, then NUL: `strchr` returns NULL. -/
theorem strchrFrom_none (c : Byte) (s post : List Byte) (i : Nat) (hc : c ≠ 0) (h : ∀ b ∈ s, b ≠ c) :
    strchrFrom c (s ++ 0 :: post) i = .ok none := by
  induction s generalizing i with
  | nil => simpa [strchrFrom] using Ne.symm hc
  | cons b s ih =>
    have := h b (by simp)
    simp only [List.cons_append, strchrFrom, this, if_false]
    split
    · rfl
    · exact ih (i+1) (fun b hb => h b (by simp [hb]))

/-- First occurrence of `c`, no NUL before it. -/
theorem strchrFrom_some (c : Byte) (s post : List Byte) (i : Nat) (h : ∀ b ∈ s, b ≠ c ∧ b ≠ 0) :
    strchrFrom c (s ++ c :: post) i = .ok (some (i + s.length)) := by
  induction s generalizing i with
  | nil => simp [strchrFrom]
  | cons b s ih =>
    obtain ⟨h1, h2⟩ := h b (by simp)
    simp only [List.cons_append, strchrFrom, h1, h2, if_false]
    rw [ih (i+1) (fun b hb => h b (by simp [hb]))]
    simp; omega
