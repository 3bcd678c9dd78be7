import Verif.Props.Bech32
import Verif.Lemmas.Bech32Code

/-! Property theorem C70 about `bech32.c`: up to four substituted characters are always detected. -/
open Bech32
open Bech32Spec (Valid lower char isUpper isLower polymod hrpExpand differences)

theorem differences_append {α : Type} [DecidableEq α] (p x y : List α) : differences (p ++ x) (p ++ y) = differences x y := by
  induction p with
  | nil => rfl
  | cons a p ih =>
    rw [← ih]
    simp [differences]

theorem differences_map {α β : Type} [DecidableEq α] [DecidableEq β] (f : α → β) (x y : List α)
    (hinj : ∀ a ∈ x, ∀ b ∈ y, f a = f b → a = b) : differences (x.map f) (y.map f) = differences x y := by
  induction x generalizing y with
  | nil => cases y <;> rfl
  | cons a x ih => cases y with
    | nil => rfl
    | cons b y =>
      have h1 := ih y fun a ha b hb => hinj a (by simp [ha]) b (by simp [hb])
      unfold differences at h1 ⊢
      simp only [List.map_cons, List.zip_cons_cons, List.countP_cons]
      rw [h1]
      congr 1
      by_cases hab : a = b
      · subst hab; simp
      · have : f a ≠ f b := fun h => hab (hinj a (by simp) b (by simp) h)
        simp [hab, this]

/-- Two valid strings with the same human-readable part and of the same length are equal up to case, or differ in at
least five places. -/
theorem valid_distance {s t H D1 D2 : List Byte} (v1 : Valid s H D1) (v2 : Valid t H D2) (hlen : s.length = t.length)
    (hd : differences (s.map lower) (t.map lower) ≤ 4) : s.map lower = t.map lower := by
  obtain ⟨S1, hS1, hl1, hm1, hp1⟩ := v1.parts
  obtain ⟨S2, hS2, hl2, hm2, hp2⟩ := v2.parts
  have e1 := congrArg List.length hm1
  have e2 := congrArg List.length hm2
  have l1 := v1.length
  have hne := List.length_pos_iff.2 v1.hrp_ne
  simp only [List.length_map, List.length_append, List.length_cons, List.length_nil] at e1 e2
  rw [hm1, hm2, differences_append, differences_map _ _ _ (fun a ha b hb => char_inj a b (hl1 a ha) (hl2 b hb))] at hd
  have := Bech32Spec.distance ((hrpExpand H).foldl Bech32Spec.step 1#30) (D1 ++ S1) (D2 ++ S2) (by simp; omega)
    (by simp; omega) hl1 hl2 hd (by
      rw [← List.foldl_append, ← List.foldl_append, ← List.append_assoc, ← List.append_assoc]
      exact hp1.trans hp2.symm)
  rw [hm1, hm2, this]

/-- C70. Of two strings of the same length whose human-readable parts are the same and that differ in at least one and at
most four characters (letter case ignored), at most one is accepted. -/
theorem C70_four_errors_detected (s t post1 post2 hrp1 hrp2 b1 b2 : List Byte) (cap1 cap2 : Nat)
    (r1 r2 : DecodeResult) (hlen : s.length = t.length) (hne : s.map lower ≠ t.map lower)
    (hd : differences (s.map lower) (t.map lower) ≤ 4)
    (hz1 : 0#8 ∈ post1) (hz2 : 0#8 ∈ post2)
    (hc1 : cap1 ≤ hrp1.length) (hc2 : cap2 ≤ hrp2.length)
    (hb1 : s.length - 8 ≤ b1.length) (hb2 : t.length - 8 ≤ b2.length)
    (h1 : decode (s ++ post1) s.length hrp1 cap1 b1 = .ok r1)
    (h2 : decode (t ++ post2) t.length hrp2 cap2 b2 = .ok r2)
    (hs : r2.hrpSize = r1.hrpSize)
    (hpre : (s.map lower).take r1.hrpSize = (t.map lower).take r1.hrpSize) :
    ¬ (0 ≤ r1.ret ∧ 0 ≤ r2.ret) := by
  rintro ⟨hr1, hr2⟩
  obtain ⟨H1, D1, v1, rfl, -⟩ := C35_bech32_sound _ _ _ _ _ _ hz1 hc1 hb1 h1 hr1
  obtain ⟨H2, D2, v2, rfl, -⟩ := C35_bech32_sound _ _ _ _ _ _ hz2 hc2 hb2 h2 hr2
  simp only at hs hpre
  have key : ∀ {z H D : List Byte}, Valid z H D → (z.map lower).take H.length = H := by
    intro z H D v
    obtain ⟨S, -, -, hm, -⟩ := v.parts
    rw [hm, List.append_assoc, List.take_left]
  have hH : H1 = H2 := by
    have a1 := key v1
    have a2 := key v2
    rw [← a1, hpre, ← hs, a2]
  subst hH
  exact hne (valid_distance v1 v2 hlen hd)

/-- Non-vacuity of C70: a valid string and one with four characters changed, far apart, meet the hypotheses; the second is
rejected. -/
example : ∃ r1 r2, decode (cstr "BC1QW56K6G7K" ++ [0]) 12 [9, 9, 9] 3 [9, 9, 9, 9] = .ok r1 ∧
    decode (cstr "bc1pw5qk6q7q" ++ [0]) 12 [9, 9, 9] 3 [9, 9, 9, 9] = .ok r2 ∧
    r2.hrpSize = r1.hrpSize ∧ r1.ret = 3 ∧ r2.ret = -5 ∧
    differences ((cstr "BC1QW56K6G7K").map lower) ((cstr "bc1pw5qk6q7q").map lower) = 4 ∧
    ((cstr "BC1QW56K6G7K").map lower).take r1.hrpSize = ((cstr "bc1pw5qk6q7q").map lower).take r1.hrpSize :=
  ⟨⟨3, [0x62, 0x63, 9], 2, [0, 14, 20, 9]⟩, ⟨-5, [0x62, 0x63, 9], 2, [1, 14, 20, 9]⟩, by decide +kernel⟩
