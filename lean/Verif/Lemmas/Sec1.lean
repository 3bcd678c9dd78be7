import Verif.Model.Key
import Verif.Lemmas.BeNat
import Verif.Lemmas.Secp256k1Order
/-! SEC 1 encodings: reading inverts writing. -/
namespace SecpLib
open Secp256k1 WordSpec Endian

theorem p_lt256 : p < 256 ^ 32 := by norm_num [p]
theorem n_lt256 : n < 256 ^ 32 := by norm_num [n]

theorem pub_some {d : Nat} (h0 : 0 < d) (h : d < n) : ∃ x y, pub d = some (x, y) ∧ OnCurve (some (x, y)) := by
  have hd : d < 2 ^ 256 := lt_trans h n_lt
  have hne : mul d G ≠ none := by
    rw [Ne, mul_G_eq_none hd]
    exact fun hd => absurd (Nat.le_of_dvd h0 hd) (by omega)
  have hc := (mul_spec hd G_onCurve).1
  rw [pub]
  cases hm : mul d G with
  | none => exact absurd hm hne
  | some xy => exact ⟨xy.1, xy.2, rfl, by rw [hm] at hc; exact hc⟩

/-- `-7` is not a cube. -/
theorem no_zero_ordinate {x : Nat} (h : OnCurve (some (x, 0))) : False := by
  obtain ⟨hx, -, hn⟩ := onCurve_some.1 h
  rw [nonsingular_W] at hn
  have h3 : (x : ZMod p) ^ 3 = ((p - 7 : Nat) : ZMod p) := by
    rw [Nat.cast_sub (by decide +kernel), ZMod.natCast_self]
    push_cast at hn ⊢
    linear_combination -hn
  have hx0 : (x : ZMod p) ≠ 0 := by
    intro h0
    rw [h0] at h3
    have h7 : ((p - 7 : Nat) : ZMod p) ≠ 0 := by
      rw [Ne, ZMod.natCast_eq_zero_iff]
      intro hd
      have := Nat.le_of_dvd (by decide +kernel) hd
      exact absurd this (by decide +kernel)
    exact h7 (h3.symm.trans (by norm_num))
  have h1 : ((p - 7 : Nat) : ZMod p) ^ ((p - 1) / 3) = 1 := by
    rw [← h3, ← pow_mul, show 3 * ((p - 1) / 3) = p - 1 by decide +kernel]
    exact ZMod.pow_card_sub_one_eq_one hx0
  have h2 : powMod p 256 (p - 7) ((p - 1) / 3) = 1 := by
    rw [powMod_eq p 256 _ _ (by decide +kernel)]
    have : ((p - 7) ^ ((p - 1) / 3) : Nat) % p = 1 % p := by
      rw [← ZMod.natCast_eq_natCast_iff']
      push_cast
      exact h1
    rw [this]; decide +kernel
  exact absurd h2 (by decide +kernel)

theorem sqrtP_lt (a : Nat) : sqrtP a < p := by
  rw [sqrtP, powMod_eq p 256 _ _ (by decide +kernel)]
  exact Nat.mod_lt _ p_pos

/-- The root of a square is one of the two roots. -/
theorem sqrtP_sq {y : Nat} (hy : y < p) (a : Nat) (ha : y * y % p = a % p) :
    sqrtP a = y ∨ sqrtP a = (p - y) % p := by
  have hs := sqrtP_lt a
  have hF : ((sqrtP a : Nat) : ZMod p) = (y : ZMod p) ^ ((p + 1) / 2) := by
    have e : ((a : Nat) : ZMod p) = (y : ZMod p) ^ 2 := by
      have := (ZMod.natCast_eq_natCast_iff' (y * y) a p).2 ha
      rw [← this]; push_cast; ring
    rw [sqrtP, powMod_eq p 256 _ _ (by decide +kernel), ZMod.natCast_mod]
    push_cast
    rw [e, ← pow_mul, show 2 * ((p + 1) / 4) = (p + 1) / 2 by decide +kernel]
  have hsq : ((sqrtP a : Nat) : ZMod p) ^ 2 = (y : ZMod p) ^ 2 := by
    rw [hF, ← pow_mul, show (p + 1) / 2 * 2 = p + 1 by decide +kernel, pow_succ, ZMod.pow_card]; ring
  rcases sq_eq_sq_iff_eq_or_eq_neg.1 hsq with h | h
  · left; exact (cast_inj hs hy).1 h
  · right
    rw [← cast_inj hs (Nat.mod_lt _ p_pos), ZMod.natCast_mod, cast_psub hy]
    exact h

theorem neg_parity {y : Nat} (hy : y < p) (h0 : y ≠ 0) : (p - y) % p = p - y ∧ ((p - y) % 2 = 1 ↔ y % 2 = 0) := by
  have := p_odd
  exact ⟨Nat.mod_eq_of_lt (by omega), by omega⟩

theorem onCurve_neg {x y : Nat} (h : OnCurve (some (x, y))) : OnCurve (some (x, (p - y) % p)) :=
  (neg_spec h).1

/-- Lifting an abscissa: exactly the point with this abscissa and parity. -/
theorem liftX_some_iff (x : Nat) (odd : Bool) (P : Nat × Nat) :
    liftX x odd = some P ↔ P.1 = x ∧ OnCurve (some P) ∧ (P.2 % 2 = 1 ↔ odd = true) := by
  obtain ⟨X, Y⟩ := P
  have hs := sqrtP_lt ((x * x * x + 7) % p)
  constructor
  · intro h
    rw [liftX] at h
    split at h
    · rename_i hc
      have hon : OnCurve (some (x, sqrtP ((x * x * x + 7) % p))) := ⟨hc.1, hs, hc.2⟩
      have h0 : sqrtP ((x * x * x + 7) % p) ≠ 0 := fun h0 => no_zero_ordinate (h0 ▸ hon)
      have hn := neg_parity hs h0
      rw [Option.some.injEq, Prod.mk.injEq] at h
      obtain ⟨hX, hY⟩ := h
      subst hX
      refine ⟨rfl, ?_⟩
      split at hY
      · rename_i hp
        subst hY
        exact ⟨hon, by rw [← hp]; simp⟩
      · rename_i hp
        subst hY
        refine ⟨onCurve_neg hon, ?_⟩
        show (p - sqrtP _) % p % 2 = 1 ↔ _
        rw [hn.1, hn.2]
        cases odd <;> simp at hp <;> simp <;> omega
    · cases h
  · rintro ⟨rfl, hon, hp⟩
    obtain ⟨hX, hY, he⟩ := hon
    have hon : OnCurve (some (X, Y)) := ⟨hX, hY, he⟩
    have hroot := sqrtP_sq hY ((X * X * X + 7) % p) (by rw [Nat.mod_mod]; exact he)
    have hY0 : Y ≠ 0 := fun h0 => no_zero_ordinate (h0 ▸ hon)
    have hn := neg_parity hY hY0
    rw [liftX]
    simp only []
    rcases hroot with h | h
    · rw [h, if_pos ⟨hX, he⟩, if_pos]
      cases odd <;> simp at hp <;> simp <;> omega
    · have hon' := onCurve_neg hon
      rw [h, if_pos ⟨hX, hon'.2.2⟩, if_neg]
      · rw [hn.1, show p - (p - Y) = Y by omega, Nat.mod_eq_of_lt hY]
      · rw [hn.1]
        have := hn.2
        cases odd <;> simp at hp <;> simp <;> omega

theorem parse33_iff (enc : List Byte) (h : 33 ≤ enc.length) (P : Nat × Nat) :
    pubkeyParse enc 33 = .ok (some P, true) ↔ enc.take 33 = compressed P.1 P.2 ∧ OnCurve (some P) := by
  obtain ⟨X, Y⟩ := P
  rw [pubkeyParse, if_neg (by omega)]
  simp only []
  have hl : (enc.take 33).length = 33 := by rw [List.length_take]; omega
  generalize enc.take 33 = inp at *
  match inp with
  | [] => simp at hl
  | t :: rest =>
    have hr : rest.length = 32 := by simpa using hl
    simp only [true_and]
    by_cases ht : t = 0x02#8 ∨ t = 0x03#8
    · rw [if_pos ht]
      constructor
      · intro hh
        cases hq : liftX (beNat rest) (decide (t = 0x03#8)) with
        | none => rw [hq] at hh; simp at hh
        | some Q =>
          rw [hq] at hh
          simp at hh
          obtain ⟨h1, h2, h3⟩ := (liftX_some_iff _ _ _).1 (hh ▸ hq)
          refine ⟨?_, h2⟩
          simp only at h1 h3
          rw [compressed, h1, beBytes_beNat_of_length rest 32 hr]
          congr 1
          rcases ht with ht | ht
          · subst ht
            rw [if_pos]
            simp at h3; omega
          · subst ht
            rw [if_neg]
            simp at h3; omega
      · rintro ⟨h1, h2⟩
        simp only [compressed, List.cons.injEq] at h1
        have hx : X < 256 ^ 32 := lt_trans h2.1 p_lt256
        have : liftX (beNat rest) (decide (t = 0x03#8)) = some (X, Y) := by
          rw [liftX_some_iff, h1.2, beNat_beBytes_lt _ _ hx]
          refine ⟨rfl, h2, ?_⟩
          rw [h1.1]
          by_cases hy : Y % 2 = 0
          · rw [if_pos hy]; simp [hy]
          · rw [if_neg hy]; simp; omega
        rw [this]
    · have h4 : ¬ ((33:Nat) = 65 ∧ (t = 0x04#8 ∨ t = 0x06#8 ∨ t = 0x07#8)) := fun h => absurd h.1 (by decide)
      rw [if_neg ht, if_neg h4]
      constructor
      · intro hh; simp at hh
      · rintro ⟨h1, -⟩
        simp only [compressed, List.cons.injEq] at h1
        exact absurd (by rw [h1.1]; by_cases hy : Y % 2 = 0 <;> simp [hy]) ht

theorem parse65_iff (enc : List Byte) (h : 65 ≤ enc.length) (P : Nat × Nat) :
    pubkeyParse enc 65 = .ok (some P, true) ↔
      (enc.take 65 = uncompressed P.1 P.2 ∨ enc.take 65 = hybrid P.1 P.2) ∧ OnCurve (some P) := by
  obtain ⟨X, Y⟩ := P
  rw [pubkeyParse, if_neg (by omega)]
  simp only []
  have hl : (enc.take 65).length = 65 := by rw [List.length_take]; omega
  generalize enc.take 65 = inp at *
  match inp with
  | [] => simp at hl
  | t :: rest =>
    have hr : rest.length = 64 := by simpa using hl
    have h33 : ¬ ((65:Nat) = 33 ∧ (t = 0x02#8 ∨ t = 0x03#8)) := fun h => absurd h.1 (by decide)
    simp only [true_and]
    rw [if_neg h33]
    have e1 : (rest.take 32).length = 32 := by rw [List.length_take]; omega
    have e2 : (rest.drop 32).length = 32 := by rw [List.length_drop]; omega
    have esplit : ∀ {X Y : Nat}, OnCurve (some (X, Y)) → rest = beBytes 32 X ++ beBytes 32 Y →
        beNat (rest.take 32) = X ∧ beNat (rest.drop 32) = Y := by
      intro X Y hon he
      rw [he, List.take_left' (beBytes_length 32 X), List.drop_left' (beBytes_length 32 X),
        beNat_beBytes_lt _ _ (lt_trans hon.1 p_lt256), beNat_beBytes_lt _ _ (lt_trans hon.2.1 p_lt256)]
      exact ⟨rfl, rfl⟩
    have erest : beBytes 32 (beNat (rest.take 32)) ++ beBytes 32 (beNat (rest.drop 32)) = rest := by
      rw [beBytes_beNat_of_length _ _ e1, beBytes_beNat_of_length _ _ e2, List.take_append_drop]
    by_cases ht : t = 0x04#8 ∨ t = 0x06#8 ∨ t = 0x07#8
    · rw [if_pos ht]
      by_cases hc : OnCurve (some (beNat (rest.take 32), beNat (rest.drop 32))) ∧
          (t = 0x06#8 → beNat (rest.drop 32) % 2 = 0) ∧ (t = 0x07#8 → beNat (rest.drop 32) % 2 = 1)
      · rw [if_pos hc]
        constructor
        · intro hh
          simp only [Res.ok.injEq, Prod.mk.injEq, Option.some.injEq, and_true] at hh
          obtain ⟨hX, hY⟩ := hh
          simp only [uncompressed, hybrid]
          rw [← hX, ← hY, erest]
          refine ⟨?_, hc.1⟩
          rcases ht with ht | ht | ht
          · left; rw [ht]
          · right; rw [if_pos (hc.2.1 ht), ht]
          · right; rw [if_neg (by have := hc.2.2 ht; omega), ht]
        · rintro ⟨h1, h2⟩
          have he : rest = beBytes 32 X ++ beBytes 32 Y := by
            rcases h1 with h1 | h1 <;> simp only [uncompressed, hybrid, List.cons.injEq] at h1 <;> exact h1.2
          rw [(esplit h2 he).1, (esplit h2 he).2]
      · rw [if_neg hc]
        constructor
        · intro hh; simp at hh
        · rintro ⟨h1, h2⟩
          exfalso
          apply hc
          have he : rest = beBytes 32 X ++ beBytes 32 Y := by
            rcases h1 with h1 | h1 <;> simp only [uncompressed, hybrid, List.cons.injEq] at h1 <;> exact h1.2
          rw [(esplit h2 he).1, (esplit h2 he).2]
          refine ⟨h2, ?_, ?_⟩
          · intro ht6
            rw [ht6] at h1
            rcases h1 with h1 | h1 <;> simp only [uncompressed, hybrid, List.cons.injEq] at h1
            · exact absurd h1.1 (by decide)
            · by_contra hy; rw [if_neg hy] at h1; exact absurd h1.1 (by decide)
          · intro ht7
            rw [ht7] at h1
            rcases h1 with h1 | h1 <;> simp only [uncompressed, hybrid, List.cons.injEq] at h1
            · exact absurd h1.1 (by decide)
            · by_contra hy; rw [if_pos (by omega)] at h1; exact absurd h1.1 (by decide)
    · rw [if_neg ht]
      constructor
      · intro hh; simp at hh
      · rintro ⟨h1, -⟩
        exfalso
        apply ht
        rcases h1 with h1 | h1 <;> simp only [uncompressed, hybrid, List.cons.injEq] at h1
        · exact .inl h1.1
        · rw [h1.1]; by_cases hy : Y % 2 = 0 <;> simp [hy]

theorem compressed_length (x y : Nat) : (compressed x y).length = 33 := by
  simp [compressed, beBytes_length]

theorem uncompressed_length (x y : Nat) : (uncompressed x y).length = 65 := by
  simp [uncompressed, beBytes_length]

/-- A parse is a success with a point, or a failure. -/
theorem parse_total (enc : List Byte) (len : Nat) (h : len ≤ enc.length) :
    pubkeyParse enc len = .ok (none, false) ∨ ∃ P, pubkeyParse enc len = .ok (some P, true) := by
  rw [pubkeyParse, if_neg (by omega)]
  simp only []
  match enc.take len with
  | [] => left; rfl
  | t :: rest =>
    simp only []
    split
    · split
      · left; rfl
      · right; exact ⟨_, rfl⟩
    · split
      · split
        · right; exact ⟨_, rfl⟩
        · left; rfl
      · left; rfl

/-- Points are determined by their compressed encoding. -/
theorem compressed_inj {x y x' y' : Nat} (h : OnCurve (some (x, y))) (h' : OnCurve (some (x', y')))
    (he : compressed x y = compressed x' y') : (x, y) = (x', y') := by
  have hl := compressed_length x y
  have h1 := (parse33_iff (compressed x y) (by omega) (x, y)).2 ⟨by rw [List.take_of_length_le (by omega)], h⟩
  have h2 := (parse33_iff (compressed x y) (by omega) (x', y')).2 ⟨by rw [List.take_of_length_le (by omega), he], h'⟩
  rw [h1] at h2
  simpa using h2

end SecpLib
