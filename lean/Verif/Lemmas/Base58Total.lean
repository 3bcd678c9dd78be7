import Verif.Lemmas.Base58Overrun
/-!
`fingera_from_base58` on every NUL-terminated string: texts too long for `int`, and negative characters where `char` is
signed, included.
-/
namespace Base58
open Base58Spec

theorem isspace_ok (cs : Bool) (c : Byte) (h : cs = true → ¬ Negative c) : isspace cs c = .ok (isSpace c) := by
  unfold isspace isSpace
  cases cs
  · simp
  · have := h rfl
    rw [Negative] at this
    rw [if_neg (by simp; omega)]

theorem isspace_neg (c : Byte) (h : Negative c) : isspace true c = .ub := by
  unfold isspace
  rw [Negative] at h
  rw [if_pos (by simp; omega)]

theorem neg_not_space {c : Byte} (h : Negative c) : isSpace c = false ∧ c ≠ 0#8 ∧ c ≠ 49#8 := by
  rw [Negative] at h
  refine ⟨by unfold isSpace; simp; omega, ?_, ?_⟩ <;> (rintro rfl; revert h; decide)

/-! ### the scanning loops with a negative character behind `p` -/

theorem skipSpaces_neg (p x : List Byte) (b : Byte) (n : Nat) (h0 : ∀ c ∈ p, c ≠ 0#8) (hp : ∀ c ∈ p, ¬ Negative c)
    (hb : Negative b) :
    skipSpaces true (p ++ b :: x) n = if p.all isSpace then .ub else skipSpaces false (p ++ b :: x) n := by
  induction p generalizing n with
  | nil =>
    rw [List.nil_append, skipSpaces, if_neg (neg_not_space hb).2.1, isspace_neg b hb]; rfl
  | cons c p ih =>
    rw [List.cons_append, skipSpaces, skipSpaces, if_neg (h0 c (by simp)), if_neg (h0 c (by simp)),
      isspace_ok true c (fun _ => hp c (by simp)), isspace_ok false c (fun h => by cases h)]
    simp only [Res.ok_bind, List.all_cons]
    by_cases hc : isSpace c = true
    · simp only [hc, if_true, Bool.true_and]
      exact ih (n+1) (fun c hc => h0 c (by simp [hc])) (fun c hc => hp c (by simp [hc]))
    · simp [hc]

theorem skipSpaces_append (s x : List Byte) (n : Nat) (h0 : ∀ c ∈ s, c ≠ 0#8) (h : ¬ s.all isSpace = true) :
    skipSpaces false (s ++ x) n = .ok (s.dropWhile isSpace ++ x, n + (s.takeWhile isSpace).length) := by
  induction s generalizing n with
  | nil => simp at h
  | cons c s ih =>
    rw [List.cons_append, skipSpaces, if_neg (h0 c (by simp)), isspace_ok false c (fun h => by cases h)]
    simp only [Res.ok_bind]
    cases hc : isSpace c with
    | false => simp [hc]
    | true =>
      simp only [if_true]
      rw [ih (n+1) (fun c hc => h0 c (by simp [hc])) (by simpa [hc] using h)]
      simp [hc]; omega

theorem countOnes_neg (t x : List Byte) (b : Byte) (n : Nat) (hb : b ≠ 49#8) :
    countOnes (t ++ b :: x) n = .ok (t.dropWhile (· = 49#8) ++ b :: x, n + (t.takeWhile (· = 49#8)).length) := by
  have h1 : chr '1' = 49#8 := by decide
  induction t generalizing n with
  | nil => simp [countOnes, h1, hb]
  | cons c s ih =>
    rw [List.cons_append, countOnes, h1]
    by_cases hc : c = 49#8
    · rw [if_pos hc, ih (n+1)]; simp [hc]; omega
    · rw [if_neg hc]; simp [hc]

theorem skipTrailing_neg (p x : List Byte) (b : Byte) (hp : ∀ c ∈ p, ¬ Negative c) (hb : Negative b) :
    skipTrailing true (p ++ b :: x) = if p.all isSpace then .ub else skipTrailing false (p ++ b :: x) := by
  induction p with
  | nil => rw [List.nil_append, skipTrailing, isspace_neg b hb]; rfl
  | cons c p ih =>
    rw [List.cons_append, skipTrailing, skipTrailing,
      isspace_ok true c (fun _ => hp c (by simp)), isspace_ok false c (fun h => by cases h)]
    simp only [Res.ok_bind, List.all_cons]
    by_cases hc : isSpace c = true
    · simp only [hc, if_true, Bool.true_and]
      exact ih (fun c hc => hp c (by simp [hc]))
    · simp [hc]

/-- A digit or not: what the loop does with a character that is no blank. -/
theorem digitLoop_neg (size : Nat) (t x : List Byte) (b : Byte) (b256 : List Byte) (len : Nat) (h0 : ∀ c ∈ t, c ≠ 0#8)
    (ht : ∀ c ∈ t, ¬ Negative c) (hb : Negative b) :
    (t.all (fun c => !isSpace c && (value? c).isSome) = true → ∀ r, digitLoop false size (t ++ b :: x) b256 len = .ok r →
      digitLoop true size (t ++ b :: x) b256 len = .ub) ∧
    (¬ t.all (fun c => !isSpace c && (value? c).isSome) = true →
      digitLoop true size (t ++ b :: x) b256 len = digitLoop false size (t ++ b :: x) b256 len) := by
  induction t generalizing b256 len with
  | nil =>
    refine ⟨fun _ r _ => ?_, fun h => absurd rfl h⟩
    rw [List.nil_append, digitLoop, if_neg (neg_not_space hb).2.1, isspace_neg b hb]; rfl
  | cons c t ih =>
    have ih := fun b256 len => ih b256 len (fun c hc => h0 c (by simp [hc])) (fun c hc => ht c (by simp [hc]))
    rw [List.cons_append, digitLoop, digitLoop, if_neg (h0 c (by simp)), if_neg (h0 c (by simp)),
      isspace_ok true c (fun _ => ht c (by simp)), isspace_ok false c (fun h => by cases h), rd_decode]
    simp only [Res.ok_bind, List.all_cons]
    cases hs : isSpace c with
    | true => exact ⟨fun h => (by simp at h), fun _ => rfl⟩
    | false =>
      simp only [Bool.false_eq_true, if_false, Bool.not_false, Bool.true_and]
      cases hv : value? c with
      | none => exact ⟨fun h => (by simp at h), fun _ => rfl⟩
      | some v =>
        simp only [Option.isSome_some, Bool.true_and]
        rw [if_neg (show ¬ ((v:Int) = -1) by omega)]
        cases hc : carryLoop 256 58 len size 0 (v : Int).toNat b256 with
        | ub => exact ⟨fun _ r h => (by cases h), fun _ => rfl⟩
        | abort => exact ⟨fun _ r h => (by cases h), fun _ => rfl⟩
        | ok st =>
          obtain ⟨b', i, carry⟩ := st
          simp only [Res.ok_bind]
          cases ha : assertC (carry == 0) with
          | ub => exact ⟨fun _ r h => (by cases h), fun _ => rfl⟩
          | abort => exact ⟨fun _ r h => (by cases h), fun _ => rfl⟩
          | ok u =>
            simp only [Res.ok_bind]
            exact ih b' i

theorem decode_ne_none_iff (p : List Byte) : decode? p ≠ none ↔
    (((p.dropWhile isSpace).takeWhile fun c => !isSpace c).all (fun c => (value? c).isSome) = true ∧
      ((p.dropWhile isSpace).dropWhile fun c => !isSpace c).all isSpace = true) := by
  unfold decode?
  simp only
  split
  · rename_i h
    rw [Bool.and_eq_true] at h
    exact ⟨fun _ => h, fun _ => by simp⟩
  · rename_i h
    rw [Bool.and_eq_true] at h
    exact ⟨fun h' => absurd rfl h', fun h' => absurd h' h⟩

/-- Where `char` is unsigned. -/
theorem fromBase58_unsigned (s post buf : List Byte) (h0 : ∀ b ∈ s, b ≠ 0#8) :
    (TooLong s → fromBase58 false (s ++ 0#8 :: post) s.length buf = .ub) ∧
    (¬ TooLong s → (decode? s = none → fromBase58 false (s ++ 0#8 :: post) s.length buf = .ok (buf, 0)) ∧
      ∀ W, decode? s = some W →
        (W.length ≤ buf.length → fromBase58 false (s ++ 0#8 :: post) s.length buf = .ok (over W buf, W.length)) ∧
        (buf.length < W.length → fromBase58 false (s ++ 0#8 :: post) s.length buf = .ub)) := by
  refine ⟨fun h => ?_, fun h => ?_⟩
  · unfold fromBase58
    rw [skipSpaces_eq false s post 0 h0 (fun h => by cases h)]
    simp only [Res.ok_bind]
    rw [countOnes_eq]
    simp only [Res.ok_bind, Nat.zero_add]
    rw [TooLong] at h
    have hsum : (s.takeWhile isSpace).length + (s.dropWhile isSpace).length = s.length := by
      rw [← List.length_append, List.takeWhile_append_dropWhile]
    generalize s.dropWhile isSpace = t at h hsum ⊢
    have hsum' : (t.takeWhile (· = 49#8)).length + (t.dropWhile (· = 49#8)).length = t.length := by
      rw [← List.length_append, List.takeWhile_append_dropWhile]
    by_cases h1 : (t.takeWhile (· = 49#8)).length ≥ 2 ^ 31
    · rw [if_pos h1]
    · rw [if_neg h1]
      have h2 : 2 ^ 31 ≤ (t.dropWhile (· = 49#8)).length * 733 := h.resolve_left h1
      rw [show ((s.length : Int) - ((s.takeWhile isSpace).length : Int) - ((t.takeWhile (· = 49#8)).length : Int)) =
        ((t.dropWhile (· = 49#8)).length : Int) by omega]
      have : workSize ((t.dropWhile (· = 49#8)).length : Int) = .ub := by
        unfold workSize
        rw [if_pos (by omega)]
      rw [this]; rfl
  · rw [TooLong, not_or, Nat.not_le, Nat.not_le] at h
    have big := fun buf' => fromBase58_eq_exact false s post buf' h0 (fun h => by cases h) h.1 h.2
    refine ⟨fun hd => ?_, fun W hd => ⟨fun hW => ?_, fun hW => ?_⟩⟩
    · have := big buf (by intro W hW; rw [hd] at hW; cases hW)
      rw [hd] at this; exact this
    · have := big buf (by intro W' hW'; rw [hd, Option.some.injEq] at hW'; rw [← hW']; exact hW)
      rw [hd] at this; exact this
    · have := big (List.replicate W.length 0#8) (by
        intro W' hW'; rw [hd, Option.some.injEq] at hW'; rw [← hW', List.length_replicate]; exact Nat.le_refl _)
      rw [hd] at this
      exact fromBase58_overrun_aux false _ _ _ _ buf _ this hW

theorem decode_ne_none_iff' (p : List Byte) : decode? p ≠ none ↔
    (((((p.dropWhile isSpace).dropWhile (· = 49#8)).takeWhile fun c => !isSpace c).all (fun c => (value? c).isSome) = true) ∧
      ((((p.dropWhile isSpace).dropWhile (· = 49#8)).dropWhile fun c => !isSpace c).all isSpace = true)) := by
  rw [decode_ne_none_iff]
  generalize p.dropWhile isSpace = t
  obtain ⟨s1, s2, -⟩ := body_split t
  have hv : value? 49#8 = some 0 := by decide +kernel
  have : (t.takeWhile (· = 49#8)).all (fun c => (value? c).isSome) = true := by
    rw [List.all_eq_true]
    intro x hx
    rw [all_takeWhile_ones t x hx, hv]; rfl
  rw [s1, s2, List.all_append, this, Bool.true_and]

theorem takeWhile_eq_self_of_all {α : Type} (p : α → Bool) (l : List α) (h : l.all p = true) :
    l.takeWhile p = l ∧ l.dropWhile p = [] := by
  induction l with
  | nil => exact ⟨rfl, rfl⟩
  | cons a l ih =>
    rw [List.all_cons, Bool.and_eq_true] at h
    obtain ⟨i1, i2⟩ := ih h.2
    exact ⟨by rw [List.takeWhile_cons_of_pos h.1, i1], by rw [List.dropWhile_cons_of_pos h.1, i2]⟩

theorem takeWhile_append_of_not_all {α : Type} (p : α → Bool) (l x : List α) (h : ¬ l.all p = true) :
    (l ++ x).takeWhile p = l.takeWhile p ∧ (l ++ x).dropWhile p = l.dropWhile p ++ x := by
  induction l with
  | nil => simp at h
  | cons a l ih =>
    rw [List.cons_append]
    by_cases ha : p a = true
    · obtain ⟨i1, i2⟩ := ih (by simpa [ha] using h)
      simp only [List.takeWhile_cons, List.dropWhile_cons, ha, if_true, i1, i2, true_and]
    · simp [ha]

/-- Where `char` is signed, and there is a negative character. -/
theorem fromBase58_negative (p r post buf : List Byte) (b : Byte) (h0 : ∀ c ∈ p ++ b :: r, c ≠ 0#8)
    (hp : ∀ c ∈ p, ¬ Negative c) (hb : Negative b) :
    (decode? p ≠ none → fromBase58 true (p ++ b :: r ++ 0#8 :: post) (p ++ b :: r).length buf = .ub) ∧
    (decode? p = none → fromBase58 true (p ++ b :: r ++ 0#8 :: post) (p ++ b :: r).length buf =
      fromBase58 false (p ++ b :: r ++ 0#8 :: post) (p ++ b :: r).length buf) := by
  have e : p ++ b :: r ++ 0#8 :: post = p ++ b :: (r ++ 0#8 :: post) := by simp
  have h0p : ∀ c ∈ p, c ≠ 0#8 := fun c hc => h0 c (by simp [hc])
  rw [e]
  unfold fromBase58
  rw [skipSpaces_neg p _ b 0 h0p hp hb]
  by_cases hsp : p.all isSpace = true
  · rw [if_pos hsp]
    refine ⟨fun _ => rfl, fun h => ?_⟩
    exfalso
    revert h
    rw [imp_false, ← ne_eq, decode_ne_none_iff, (takeWhile_eq_self_of_all _ _ hsp).2]
    exact ⟨rfl, rfl⟩
  rw [if_neg hsp, skipSpaces_append p _ 0 h0p hsp]
  simp only [Res.ok_bind]
  rw [countOnes_neg _ _ _ _ (neg_not_space hb).2.2]
  simp only [Res.ok_bind, Nat.zero_add]
  rw [decode_ne_none_iff']
  have hnone : decode? p = none ↔ ¬ (((((p.dropWhile isSpace).dropWhile (· = 49#8)).takeWhile fun c => !isSpace c).all
      (fun c => (value? c).isSome) = true) ∧
      ((((p.dropWhile isSpace).dropWhile (· = 49#8)).dropWhile fun c => !isSpace c).all isSpace = true)) := by
    rw [← decode_ne_none_iff', ne_eq, Classical.not_not]
  rw [hnone]
  have hsum : (p.takeWhile isSpace).length + (p.dropWhile isSpace).length = p.length := by
    rw [← List.length_append, List.takeWhile_append_dropWhile]
  have hts : p.dropWhile isSpace <:+ p := List.dropWhile_suffix _
  generalize p.dropWhile isSpace = t at hsum hts ⊢
  have hsum' : (t.takeWhile (· = 49#8)).length + (t.dropWhile (· = 49#8)).length = t.length := by
    rw [← List.length_append, List.takeWhile_append_dropWhile]
  have hts' : t.dropWhile (· = 49#8) <:+ t := List.dropWhile_suffix _
  generalize t.dropWhile (· = 49#8) = t' at hsum' hts' ⊢
  have hsub : ∀ c ∈ t', c ∈ p := fun c hc => hts.subset (hts'.subset hc)
  by_cases h1 : (t.takeWhile (· = 49#8)).length ≥ 2 ^ 31
  · rw [if_pos h1, if_pos h1]; exact ⟨fun _ => rfl, fun _ => rfl⟩
  rw [if_neg h1, if_neg h1]
  have hl : ((p ++ b :: r).length : Int) - ((p.takeWhile isSpace).length : Int) - ((t.takeWhile (· = 49#8)).length : Int) =
      ((t' ++ b :: r).length : Int) := by
    rw [List.length_append, List.length_append]; omega
  rw [hl]
  by_cases h2 : 2 ^ 31 ≤ (t' ++ b :: r).length * 733
  · have : workSize ((t' ++ b :: r).length : Int) = .ub := by
      unfold workSize
      rw [if_pos (by omega)]
    rw [this]
    exact ⟨fun _ => rfl, fun _ => rfl⟩
  rw [workSize_eq _ (Nat.lt_of_not_le h2)]
  simp only [Res.ok_bind]
  have hfit := pow_bound_dec (t' ++ b :: r).length
  generalize (t' ++ b :: r).length * 733 / 1000 + 1 = size at hfit ⊢
  have hd := digitLoop_eq false size (t' ++ b :: r) post (List.replicate size 0#8) 0 []
    (by
      intro c hc
      rcases List.mem_append.mp hc with hc | hc
      · exact h0p c (hsub c hc)
      · exact h0 c (List.mem_append_right _ hc))
    (fun h => by cases h) (by simp) (by simpa [Positional.value] using holds_init 256 size (by omega))
    (by simpa using hfit)
  rw [show t' ++ b :: r ++ 0#8 :: post = t' ++ b :: (r ++ 0#8 :: post) by simp] at hd
  obtain ⟨n1, n2⟩ := digitLoop_neg size t' (r ++ 0#8 :: post) b (List.replicate size 0#8) 0 (fun c hc => h0p c (hsub c hc))
    (fun c hc => hp c (hsub c hc)) hb
  by_cases hA : t'.all (fun c => !isSpace c && (value? c).isSome) = true
  · have hA1 : t'.all (fun c => !isSpace c) = true := by
      rw [List.all_eq_true] at hA ⊢
      intro c hc
      have := hA c hc
      rw [Bool.and_eq_true] at this
      exact this.1
    have hA2 : t'.all (fun c => (value? c).isSome) = true := by
      rw [List.all_eq_true] at hA ⊢
      intro c hc
      have := hA c hc
      rw [Bool.and_eq_true] at this
      exact this.2
    obtain ⟨w1, w2⟩ := takeWhile_eq_self_of_all _ _ hA1
    rw [w1, w2]
    have hub : digitLoop true size (t' ++ b :: (r ++ 0#8 :: post)) (List.replicate size 0#8) 0 = .ub := by
      split at hd
      · obtain ⟨b', len, ed, -⟩ := hd
        exact n1 hA _ ed
      · exact n1 hA _ hd
    rw [hub]
    exact ⟨fun _ => rfl, fun h => absurd ⟨hA2, rfl⟩ h⟩
  · rw [n2 hA]
    by_cases hB : t'.all (fun c => !isSpace c) = true
    · -- an illegal digit before any blank
      obtain ⟨w1, w2⟩ := takeWhile_eq_self_of_all _ _ hB
      have hC : ¬ t'.all (fun c => (value? c).isSome) = true := by
        intro hC
        refine hA ?_
        rw [List.all_eq_true] at hB hC ⊢
        intro c hc
        rw [hB c hc, hC c hc]; rfl
      rw [w1]
      rw [if_neg (by
        intro h
        rw [List.takeWhile_append_of_pos (by
          rw [List.all_eq_true] at hB; exact hB), List.all_append, Bool.and_eq_true] at h
        exact hC h.1)] at hd
      rw [hd]
      exact ⟨fun h => absurd h.1 hC, fun _ => rfl⟩
    · obtain ⟨w1, w2⟩ := takeWhile_append_of_not_all (fun c => !isSpace c) t' (b :: r) hB
      rw [w1] at hd
      split at hd
      · rename_i hv
        obtain ⟨b', len, ed, -⟩ := hd
        rw [w2, List.append_assoc, List.cons_append] at ed
        rw [ed]
        simp only [Res.ok_bind]
        rw [skipTrailing_neg _ _ b (fun c hc => hp c (hsub c ((List.dropWhile_suffix _).subset hc))) hb]
        split
        · rename_i hq
          exact ⟨fun _ => rfl, fun h => absurd ⟨hv, hq⟩ h⟩
        · rename_i hq
          exact ⟨fun h => absurd h.2 hq, fun _ => rfl⟩
      · rename_i hv
        rw [hd]
        exact ⟨fun h => absurd h.1 hv, fun _ => rfl⟩

/-- Either there is a first negative character, or there is none. -/
theorem first_negative (s : List Byte) : (∀ c ∈ s, ¬ Negative c) ∨
    ∃ p b r, s = p ++ b :: r ∧ (∀ c ∈ p, ¬ Negative c) ∧ Negative b := by
  induction s with
  | nil => exact .inl (by simp)
  | cons a s ih =>
    by_cases ha : Negative a
    · exact .inr ⟨[], a, s, rfl, by simp, ha⟩
    · rcases ih with h | ⟨p, b, r, rfl, h1, h2⟩
      · exact .inl (List.forall_mem_cons.mpr ⟨ha, h⟩)
      · exact .inr ⟨a :: p, b, r, rfl, List.forall_mem_cons.mpr ⟨ha, h1⟩, h2⟩

theorem first_negative_unique (p p' : List Byte) (b b' : Byte) (r r' : List Byte) (h : p ++ b :: r = p' ++ b' :: r')
    (hp : ∀ c ∈ p, ¬ Negative c) (hp' : ∀ c ∈ p', ¬ Negative c) (hb : Negative b) (hb' : Negative b') : p = p' := by
  induction p generalizing p' with
  | nil =>
    cases p' with
    | nil => rfl
    | cons a p' =>
      rw [List.nil_append, List.cons_append, List.cons.injEq] at h
      exact absurd (h.1 ▸ hb) (hp' a (by simp))
  | cons a p ih =>
    cases p' with
    | nil =>
      rw [List.nil_append, List.cons_append, List.cons.injEq] at h
      exact absurd (h.1 ▸ hb') (hp a (by simp))
    | cons a' p' =>
      rw [List.cons_append, List.cons_append, List.cons.injEq] at h
      rw [h.1, ih p' h.2 (fun c hc => hp c (by simp [hc])) (fun c hc => hp' c (by simp [hc]))]

/-- Without negative characters the signedness of `char` does not matter. -/
theorem fromBase58_sign (s post buf : List Byte) (n : Nat) (h0 : ∀ c ∈ s, c ≠ 0#8) (h : ∀ c ∈ s, ¬ Negative c) :
    fromBase58 true (s ++ 0#8 :: post) n buf = fromBase58 false (s ++ 0#8 :: post) n buf := by
  have h1 : ∀ (s : List Byte) (k : Nat), (∀ c ∈ s, c ≠ 0#8) → (∀ c ∈ s, ¬ Negative c) →
      skipSpaces true (s ++ 0#8 :: post) k = skipSpaces false (s ++ 0#8 :: post) k := by
    intro s
    induction s with
    | nil => intro k _ _; rfl
    | cons c s ih =>
      intro k h0 h
      rw [List.cons_append, skipSpaces, skipSpaces, if_neg (h0 c (by simp)), if_neg (h0 c (by simp)),
        isspace_ok true c (fun _ => h c (by simp)), isspace_ok false c (fun h => by cases h),
        ih (k+1) (fun c hc => h0 c (by simp [hc])) (fun c hc => h c (by simp [hc]))]
  have h2 : ∀ (s : List Byte), (∀ c ∈ s, ¬ Negative c) →
      skipTrailing true (s ++ 0#8 :: post) = skipTrailing false (s ++ 0#8 :: post) := by
    intro s
    induction s with
    | nil => intro _; rfl
    | cons c s ih =>
      intro h
      rw [List.cons_append, skipTrailing, skipTrailing,
        isspace_ok true c (fun _ => h c (by simp)), isspace_ok false c (fun h => by cases h),
        ih (fun c hc => h c (by simp [hc]))]
  have h3 : ∀ (size : Nat) (s b256 : List Byte) (len : Nat), (∀ c ∈ s, c ≠ 0#8) → (∀ c ∈ s, ¬ Negative c) →
      digitLoop true size (s ++ 0#8 :: post) b256 len = digitLoop false size (s ++ 0#8 :: post) b256 len ∧
      ∀ str3 b' l, digitLoop false size (s ++ 0#8 :: post) b256 len = .ok (some (str3, b', l)) →
        ∃ q, str3 = q ++ 0#8 :: post ∧ ∀ c ∈ q, ¬ Negative c := by
    intro size s
    induction s with
    | nil =>
      intro b256 len _ _
      refine ⟨rfl, fun str3 b' l h => ⟨[], ?_, by simp⟩⟩
      rw [List.nil_append, digitLoop, if_pos rfl] at h
      simp only [Res.pure_eq, Res.ok.injEq, Option.some.injEq, Prod.mk.injEq] at h
      exact h.1.symm
    | cons c s ih =>
      intro b256 len h0 h
      have ih := fun b256 len => ih b256 len (fun c hc => h0 c (by simp [hc])) (fun c hc => h c (by simp [hc]))
      rw [List.cons_append, digitLoop, digitLoop, if_neg (h0 c (by simp)), if_neg (h0 c (by simp)),
        isspace_ok true c (fun _ => h c (by simp)), isspace_ok false c (fun h => by cases h)]
      simp only [Res.ok_bind]
      by_cases hs : isSpace c = true
      · rw [if_pos hs, if_pos hs]
        refine ⟨rfl, fun str3 b' l hh => ⟨c :: s, ?_, h⟩⟩
        simp only [Res.pure_eq, Res.ok.injEq, Option.some.injEq, Prod.mk.injEq] at hh
        exact hh.1.symm
      · rw [if_neg hs, if_neg hs]
        cases hr : rd BASE58_DECODE c.toNat with
        | ub => exact ⟨rfl, fun _ _ _ h => (by cases h)⟩
        | abort => exact ⟨rfl, fun _ _ _ h => (by cases h)⟩
        | ok v =>
          simp only [Res.ok_bind]
          by_cases hv : v = -1
          · rw [if_pos hv, if_pos hv]
            exact ⟨rfl, fun _ _ _ h => (by cases h)⟩
          · rw [if_neg hv, if_neg hv]
            cases hc : carryLoop 256 58 len size 0 v.toNat b256 with
            | ub => exact ⟨rfl, fun _ _ _ h => (by cases h)⟩
            | abort => exact ⟨rfl, fun _ _ _ h => (by cases h)⟩
            | ok st =>
              obtain ⟨b', i, carry⟩ := st
              simp only [Res.ok_bind]
              cases ha : assertC (carry == 0) with
              | ub => exact ⟨rfl, fun _ _ _ h => (by cases h)⟩
              | abort => exact ⟨rfl, fun _ _ _ h => (by cases h)⟩
              | ok u =>
                simp only [Res.ok_bind]
                exact ih b' i
  unfold fromBase58
  rw [h1 s 0 h0 h, skipSpaces_eq false s post 0 h0 (fun h => by cases h)]
  simp only [Res.ok_bind]
  rw [countOnes_eq]
  simp only [Res.ok_bind]
  have hsub : ∀ c ∈ (s.dropWhile isSpace).dropWhile (· = 49#8), c ∈ s := fun c hc =>
    (List.dropWhile_suffix _).subset ((List.dropWhile_suffix _).subset hc)
  split
  · rfl
  · cases hw : workSize ((n : Int) - (0 + (s.takeWhile isSpace).length : Nat) -
      (0 + ((s.dropWhile isSpace).takeWhile (· = 49#8)).length : Nat)) with
    | ub => rfl
    | abort => rfl
    | ok size =>
      simp only [Res.ok_bind]
      obtain ⟨e, hq⟩ := h3 size _ (List.replicate size 0#8) 0 (fun c hc => h0 c (hsub c hc)) (fun c hc => h c (hsub c hc))
      rw [e]
      cases hd : digitLoop false size ((s.dropWhile isSpace).dropWhile (· = 49#8) ++ 0#8 :: post) (List.replicate size 0#8) 0 with
      | ub => rfl
      | abort => rfl
      | ok res =>
        simp only [Res.ok_bind]
        cases res with
        | none => rfl
        | some x =>
          obtain ⟨str3, b', l⟩ := x
          obtain ⟨q, rfl, hq⟩ := hq _ _ _ hd
          simp only
          rw [h2 q hq]

/-- `fingera_from_base58` on every NUL-terminated string. -/
theorem fromBase58_total (cs : Bool) (s post buf : List Byte) (h0 : ∀ b ∈ s, b ≠ 0#8) :
    (TooLong s ∨ (cs = true ∧ MeetsNegative s) → fromBase58 cs (s ++ 0#8 :: post) s.length buf = .ub) ∧
    (¬ TooLong s → ¬ (cs = true ∧ MeetsNegative s) →
      (decode? s = none → fromBase58 cs (s ++ 0#8 :: post) s.length buf = .ok (buf, 0)) ∧
      ∀ W, decode? s = some W →
        (W.length ≤ buf.length → fromBase58 cs (s ++ 0#8 :: post) s.length buf = .ok (over W buf, W.length)) ∧
        (buf.length < W.length → fromBase58 cs (s ++ 0#8 :: post) s.length buf = .ub)) := by
  obtain ⟨u1, u2⟩ := fromBase58_unsigned s post buf h0
  cases cs with
  | false =>
    refine ⟨fun h => u1 (h.resolve_right (by simp)), fun h _ => u2 h⟩
  | true =>
    rcases first_negative s with hn | ⟨p, b, r, rfl, hp, hb⟩
    · rw [fromBase58_sign s post buf s.length h0 hn]
      refine ⟨fun h => u1 (h.resolve_right ?_), fun h _ => u2 h⟩
      rintro ⟨-, p, b, r, rfl, -, hb, -⟩
      exact hn b (by simp) hb
    · obtain ⟨n1, n2⟩ := fromBase58_negative p r post buf b h0 hp hb
      have key : MeetsNegative (p ++ b :: r) ↔ decode? p ≠ none := by
        constructor
        · rintro ⟨p', b', r', e, hp', hb', hd⟩
          rw [first_negative_unique p p' b b' r r' e hp hp' hb hb']
          exact hd
        · exact fun h => ⟨p, b, r, rfl, hp, hb, h⟩
      rw [key]
      by_cases hd : decode? p = none
      · rw [n2 hd]
        exact ⟨fun h => u1 (h.resolve_right (fun h => h.2 hd)), fun h _ => u2 h⟩
      · exact ⟨fun _ => n1 hd, fun _ h => absurd ⟨rfl, hd⟩ h⟩

end Base58

namespace Base58Check
open Base58CheckSpec

/-- The bytes of a text that is not too long. -/
theorem decode_short (s W : List Byte) (hl : ¬ Base58Spec.TooLong s) (hd : Base58Spec.decode? s = some W) :
    W.length < 2 ^ 32 := by
  rw [Base58Spec.TooLong, not_or, Nat.not_le, Nat.not_le] at hl
  unfold Base58Spec.decode? at hd
  simp only at hd
  split at hd
  · rw [Option.some.injEq] at hd
    subst hd
    generalize s.dropWhile Base58Spec.isSpace = t at hl
    obtain ⟨s1, -, s3⟩ := Base58.body_split t
    rw [Base58Spec.bytes, s3, s1, Base58.value_bytes_ones _ _ (Base58.all_takeWhile_ones t)]
    simp only [List.length_append, List.length_replicate, List.length_map]
    have hlt := Positional.value_lt 58 (((t.dropWhile (· = 49#8)).takeWhile fun c => !Base58Spec.isSpace c).filterMap Base58Spec.value?) (by
      intro d hd
      obtain ⟨c, -, hc⟩ := List.mem_filterMap.mp hd
      exact Base58.value?_lt c d hc)
    have hl1 := List.length_filterMap_le Base58Spec.value? ((t.dropWhile (· = 49#8)).takeWhile fun c => !Base58Spec.isSpace c)
    have hl2 := (List.takeWhile_sublist (fun c => !Base58Spec.isSpace c) (l := t.dropWhile (· = 49#8))).length_le
    have := Positional.digits_length_le 256 _ _ (by omega) (Nat.lt_of_lt_of_le hlt (Base58.pow_bound_dec _))
    omega
  · cases hd

/-- `fingera_from_base58_check` on every NUL-terminated string. -/
theorem fromBase58Check_total (host : Host) (cs : Bool) (s post buf : List Byte) (h0 : ∀ b ∈ s, b ≠ 0#8) :
    (Base58Spec.TooLong s ∨ (cs = true ∧ Base58Spec.MeetsNegative s) →
      fromBase58Check host cs (s ++ 0#8 :: post) s.length buf = .ub) ∧
    (¬ Base58Spec.TooLong s → ¬ (cs = true ∧ Base58Spec.MeetsNegative s) →
      (Base58Spec.decode? s = none → fromBase58Check host cs (s ++ 0#8 :: post) s.length buf = .ok (buf, 0)) ∧
      ∀ W, Base58Spec.decode? s = some W →
        (W.length ≤ buf.length → fromBase58Check host cs (s ++ 0#8 :: post) s.length buf =
          .ok (over W buf, match check? W with | some p => p.length | none => 0)) ∧
        (buf.length < W.length → fromBase58Check host cs (s ++ 0#8 :: post) s.length buf = .ub)) := by
  obtain ⟨u1, u2⟩ := Base58.fromBase58_total cs s post buf h0
  rw [fromBase58Check]
  refine ⟨fun h => by rw [u1 h]; rfl, fun hl hn => ?_⟩
  obtain ⟨v1, v2⟩ := u2 hl hn
  refine ⟨fun hd => by rw [v1 hd]; rfl, fun W hd => ⟨fun hW => ?_, fun hW => by rw [(v2 W hd).2 hW]; rfl⟩⟩
  rw [(v2 W hd).1 hW]
  simp only [Res.ok_bind]
  exact checkTail_eq host buf W hW (by have := decode_short s W hl hd; omega)

/-- 7-bit texts (any texts where `char` is unsigned) of up to 2,929,669 characters are readable. -/
theorem readable_of (cs : Bool) (s : List Byte) (h7 : cs = true → ∀ b ∈ s, b.toNat < 128) (hlen : s.length ≤ 2929669) :
    Base58Spec.Readable cs s := by
  constructor
  · have h1 : ((s.dropWhile Base58Spec.isSpace).takeWhile (· = 49#8)).length ≤ s.length :=
      Nat.le_trans (List.takeWhile_sublist _).length_le (List.dropWhile_suffix _).length_le
    have h2 : ((s.dropWhile Base58Spec.isSpace).dropWhile (· = 49#8)).length ≤ s.length :=
      Nat.le_trans (List.dropWhile_suffix _).length_le (List.dropWhile_suffix _).length_le
    rw [Base58Spec.TooLong]
    omega
  · rintro ⟨hc, p, b, r, e, -, hb, -⟩
    have := h7 hc b (by rw [e]; simp)
    rw [Base58Spec.Negative] at hb
    omega

/-- The decoder on a readable text. -/
theorem fromBase58Check_readable (host : Host) (cs : Bool) (s post buf : List Byte) (h0 : ∀ b ∈ s, b ≠ 0#8)
    (hr : Base58Spec.Readable cs s) (hb : ∀ W, Base58Spec.decode? s = some W → W.length ≤ buf.length) :
    fromBase58Check host cs (s ++ 0#8 :: post) s.length buf =
      match Base58Spec.decode? s with
      | none => .ok (buf, 0)
      | some W => .ok (over W buf, match check? W with | some p => p.length | none => 0) := by
  have h := (fromBase58Check_total host cs s post buf h0).2 hr.1 hr.2
  cases hd : Base58Spec.decode? s with
  | none => exact h.1 hd
  | some W => exact (h.2 W hd).1 (hb W hd)

/-- Where the decoder returns, the text was readable and the buffer large enough. -/
theorem fromBase58Check_ub_iff (host : Host) (cs : Bool) (s post buf : List Byte) (h0 : ∀ b ∈ s, b ≠ 0#8) :
    fromBase58Check host cs (s ++ 0#8 :: post) s.length buf = .ub ↔
      ¬ (Base58Spec.Readable cs s ∧ ∀ W, Base58Spec.decode? s = some W → W.length ≤ buf.length) := by
  obtain ⟨u1, u2⟩ := fromBase58Check_total host cs s post buf h0
  constructor
  · rintro h ⟨hr, hb⟩
    rw [fromBase58Check_readable host cs s post buf h0 hr hb] at h
    split at h <;> cases h
  · intro h
    by_cases hl : Base58Spec.TooLong s
    · exact u1 (.inl hl)
    by_cases hn : cs = true ∧ Base58Spec.MeetsNegative s
    · exact u1 (.inr hn)
    have h' : ¬ ∀ W, Base58Spec.decode? s = some W → W.length ≤ buf.length := fun hb => h ⟨⟨hl, hn⟩, hb⟩
    cases hd : Base58Spec.decode? s with
    | none => exact absurd (fun W hW => by rw [hd] at hW; cases hW) h'
    | some W =>
      refine ((u2 hl hn).2 W hd).2 (Nat.lt_of_not_le fun hle => h' fun W' hW' => ?_)
      rw [hd, Option.some.injEq] at hW'
      rw [← hW']; exact hle

end Base58Check
