import Verif.Lemmas.LeakageWork
import Verif.Lemmas.LeakageText
import Mathlib.Tactic.Linarith

/-! How much the functions for texts do. -/
namespace Leakage
open Endian WorkSpec

/-! ### Writing -/

theorem toHex_costs (buf : Ptr) (upper : Bool) (n : Nat) (str : List Byte) (hn : n ≤ buf.mem.length)
    (hs : 2 * n ≤ str.length) : Costs (toHex buf n str upper) (.ok (over (HexSpec.encode upper (buf.mem.take n)) str)) (6 * n + 2) := by
  intro a h
  cases h
  refine ⟨_, toHex_seen buf n str upper hn hs, ?_⟩
  have key : ∀ (l : List Byte) (i : Nat), work (hexT buf.obj buf.base upper i l) ≤ 6 * l.length + 1 := by
    intro l
    induction l with
    | nil => intro i; simp [hexT]
    | cons x l ih =>
      intro i
      have := ih (i + 1)
      simp only [hexT, work_cons, cost_load, cost_store, cost_branch, List.length_cons]
      omega
  have := key (buf.mem.take n) 0
  rw [List.length_take] at this
  simp only [work_cons, cost_branch]
  omega

theorem skipZeroes_costs (buf : Ptr) : ∀ k p, Costs (skipZeroes buf k p) (Base58.skipZeroes buf.mem k p) (3 * k + 1) := by
  intro k
  induction k with
  | zero => intro p; exact costs_mono (costs_extra (c := 1) (by simp) (costs_pure p)) (by omega)
  | succ k ih =>
    intro p
    rw [skipZeroes, Base58.skipZeroes]
    refine costs_mono (costs_extra (c := 1) (by simp) (costs_bind (c := 1) (d := 1 + (3 * k + 1)) (costs_seen _ (by simp)) fun b _ =>
      costs_extra (c := 1) (by simp) ?_)) (by omega)
    by_cases hb : b = 0#8
    · rw [if_pos hb, if_pos hb]; exact ih (p + 1)
    · rw [if_neg hb, if_neg hb]; exact costs_mono (costs_pure p) (Nat.zero_le _)

theorem carryLoop_costs (B m length : Nat) (obj : String) : ∀ it i carry b,
    Costs (carryLoop B m length obj it i carry b) (Base58.carryLoop B m length it i carry b) (5 * it + 3) := by
  intro it
  induction it with
  | zero =>
    intro i carry b
    rw [carryLoop, Base58.carryLoop]
    exact costs_extra (c := 3) (by split <;> split <;> simp) (costs_pure _)
  | succ it ih =>
    intro i carry b
    rw [carryLoop, Base58.carryLoop]
    refine costs_mono (costs_extra (c := 2) (d := 2 + (1 + (5 * it + 3))) (by split <;> simp) ?_) (by omega)
    by_cases h : carry ≠ 0 ∨ i < length
    · rw [if_pos h, if_pos h]
      refine costs_bind (costs_seen _ (by simp)) fun d _ => ?_
      simp only []
      by_cases h2 : carry + m * d.toNat ≥ 2 ^ 31
      · rw [if_pos h2]; intro a e; rw [if_pos h2] at e; cases e
      · rw [if_neg h2, if_neg h2]
        exact costs_bind (costs_seen _ (by simp)) fun b' _ => ih _ _ _
    · rw [if_neg h, if_neg h]; exact costs_mono (costs_pure _) (Nat.zero_le _)

/-- The carry loop makes at most as many rounds as there are places. -/
theorem carryLoop_count (B m length : Nat) : ∀ it i carry b r, Base58.carryLoop B m length it i carry b = .ok r → r.2.1 ≤ i + it := by
  intro it
  induction it with
  | zero => intro i carry b r h; cases h; exact Nat.le_refl _
  | succ it ih =>
    intro i carry b r h
    rw [Base58.carryLoop] at h
    by_cases h1 : carry ≠ 0 ∨ i < length
    · rw [if_pos h1] at h
      obtain ⟨d, hd, h⟩ := bind_ok h
      simp only [] at h
      by_cases h2 : carry + m * d.toNat ≥ 2 ^ 31
      · rw [if_pos h2] at h; cases h
      · rw [if_neg h2] at h
        obtain ⟨b', hb, h⟩ := bind_ok h
        have := ih _ _ _ _ h
        omega
    · rw [if_neg h1] at h
      cases h
      simp only; omega

theorem encLoop_costs (buf : Ptr) (size : Nat) : ∀ k p st,
    Costs (encLoop buf size p k st) (forLoop (Base58.encBody buf.mem size) p k st) (k * (5 * size + 6) + 1) := by
  intro k
  induction k with
  | zero => intro p st; exact costs_mono (costs_extra (c := 1) (by simp) (costs_pure st)) (by omega)
  | succ k ih =>
    intro p st
    rw [encLoop, forLoop, Base58.encBody]
    simp only [bind_assoc, Res.pure_eq, Res.ok_bind]
    rw [Nat.add_mul]
    refine costs_mono (costs_extra (c := 1) (by simp) (costs_bind (c := 1) (d := (5 * size + 3) + (1 + (k * (5 * size + 6) + 1)))
      (costs_seen _ (by simp)) fun b _ => ?_)) (by omega)
    refine costs_bind (carryLoop_costs 58 256 _ _ _ _ _ _) fun x _ => ?_
    refine costs_bind (costs_seen _ (by simp)) fun _ _ => ?_
    exact ih _ _

theorem enc_count (buf : List Byte) (size : Nat) : ∀ k p st r, st.2 ≤ size → forLoop (Base58.encBody buf size) p k st = .ok r → r.2 ≤ size := by
  intro k
  induction k with
  | zero => intro p st r h e; cases e; exact h
  | succ k ih =>
    intro p st r h e
    rw [forLoop, Base58.encBody] at e
    obtain ⟨s, h1, e⟩ := bind_ok e
    obtain ⟨b, hb, h1⟩ := bind_ok h1
    obtain ⟨x, hx, h1⟩ := bind_ok h1
    obtain ⟨_, _, h1⟩ := bind_ok h1
    cases h1
    have := carryLoop_count _ _ _ _ _ _ _ _ hx
    exact ih _ _ _ (by rw [Nat.zero_add] at this; exact this) e

theorem outLoop_costs (b58 : List Byte) (z iter0 : Nat) : ∀ k iter str, iter0 ≤ iter →
    Costs (outLoop b58 iter (z + (iter - iter0)) k str) (forLoop (Base58.encOut b58 z iter0) iter k str) (4 * k + 1) := by
  intro k
  induction k with
  | zero => intro iter str _; exact costs_mono (costs_extra (c := 1) (by simp) (costs_pure str)) (by omega)
  | succ k ih =>
    intro iter str hi
    rw [outLoop, forLoop, Base58.encOut]
    simp only [bind_assoc]
    refine costs_mono (costs_extra (c := 1) (by simp) (costs_bind (c := 1) (d := 1 + (1 + (4 * k + 1))) (costs_seen _ (by simp)) fun d _ =>
      costs_bind (costs_seen _ (by simp)) fun c _ => costs_bind (costs_seen _ (by simp)) fun s _ => ?_)) (by omega)
    have := ih (iter + 1) s (by omega)
    rwa [show z + (iter + 1 - iter0) = z + (iter - iter0) + 1 by omega] at this

theorem skipZeroes_le (buf : List Byte) : ∀ k p r, Base58.skipZeroes buf k p = .ok r → p ≤ r ∧ r ≤ p + k := by
  intro k
  induction k with
  | zero => intro p r h; cases h; exact ⟨Nat.le_refl _, Nat.le_refl _⟩
  | succ k ih =>
    intro p r h
    rw [Base58.skipZeroes] at h
    obtain ⟨b, hb, h⟩ := bind_ok h
    by_cases e : b = 0#8
    · rw [if_pos e] at h
      have := ih _ _ h
      omega
    · rw [if_neg e] at h
      cases h
      omega

theorem cleanup_costs {α : Type} (obj : String) (n size : Nat) (a : α) :
    Costs (do cleanseL obj n; onStack size; pure a : Leak α) (.ok a) (n + 1) :=
  costs_extra (c := n) (d := 1) (by simp) (costs_mono (costs_extra (c := 1) (by simp) (costs_pure a)) (by omega))

theorem toBase58_costs (buf : Ptr) (n : Nat) (str : List Byte) :
    Costs (toBase58 buf n str) (Base58.toBase58 buf.mem n str) (7 * n ^ 2 + 28 * n + 20) := by
  unfold toBase58 Base58.toBase58
  intro a h
  obtain ⟨z, hz, -⟩ := bind_ok h
  revert a h
  have hzn := skipZeroes_le _ _ _ _ hz
  have hsz : (n - z) * 138 / 100 + 1 ≤ (138 * n + 100) / 100 := by omega
  have hb : (3 * n + 1) + (1 + ((n - z) * 138 / 100 + 1 + ((n * (5 * ((n - z) * 138 / 100 + 1) + 6) + 1) + ((3 * ((n - z) * 138 / 100 + 1) + 1) +
      (n + ((4 * ((n - z) * 138 / 100 + 1) + 1) + ((n - z) * 138 / 100 + 1 + 1))))))) ≤ 7 * n ^ 2 + 28 * n + 20 := by
    generalize (n - z) * 138 / 100 + 1 = s at hsz ⊢
    have h1 : 100 * s ≤ 138 * n + 100 := by omega
    nlinarith [Nat.mul_le_mul_left n h1, Nat.zero_le n]
  refine costs_mono ?_ hb
  rw [hz]
  obtain ⟨t, ht, hw⟩ := skipZeroes_costs buf n 0 z hz
  refine costs_bind (fun a e => ⟨t, by cases e; exact ht, by cases e; exact hw⟩) fun z' e => ?_
  cases e
  generalize hsize : (n - z) * 138 / 100 + 1 = size
  simp only []
  split
  · exact costs_ub
  refine costs_extra (by simp) (costs_extra (by simp) ?_)
  refine costs_bind (costs_mono (encLoop_costs buf size _ _ _) ?_) fun st hst => ?_
  · have : (n - z) * (5 * size + 6) ≤ n * (5 * size + 6) := Nat.mul_le_mul_right _ (by omega)
    omega
  have hlen := enc_count _ _ _ _ _ _ (Nat.zero_le size) hst
  obtain ⟨b58, length⟩ := st
  simp only at hlen ⊢
  refine costs_bind (costs_mono (skipZeroes_costs ⟨"b58", 0, b58⟩ _ _) (by omega)) fun it hit => ?_
  refine costs_bind (costs_seen _ (by simp; omega)) fun str1 _ => ?_
  have ho := outLoop_costs b58 z it (size - it) it str1 (Nat.le_refl _)
  rw [Nat.sub_self, Nat.add_zero] at ho
  refine costs_bind (costs_mono ho (by omega)) fun str2 _ => ?_
  exact cleanup_costs _ _ _ _

/-! ### Reading -/

theorem work_ite (P : Prop) [Decidable P] (b : Bool) : work (if P then [] else [.branch b]) ≤ 1 := by
  split <;> simp

theorem unhexLoop_costs (str : Ptr) (dst : String) : ∀ (k j : Nat) (s : List Byte × Nat) (r : List Byte × Nat),
    (do match ← forLoopB (ρ := List Byte × Nat) (fun j (s : List Byte × Nat) => do
          let high ← rd Hex.HEX_MAP (← rd str.mem (2*j)).toNat
          let low ← rd Hex.HEX_MAP (← rd str.mem (2*j+1)).toNat
          if high = 0xFF ∨ low = 0xFF then pure (.stop s)
          else do
            let buf ← wr s.1 s.2 ((high <<< 4) ||| low)
            pure (.next (buf, s.2 + 1))) j k s with
      | .next s => pure s
      | .stop s => pure s) = Res.ok r →
    ∃ t, unhexLoop str dst j k s = .ok r t ∧ work t ≤ 8 * k + 1 := by
  intro k
  induction k with
  | zero => intro j s r h; cases h; exact ⟨[.branch false], rfl, by simp⟩
  | succ k ih =>
    intro j s r h
    rw [forLoopB] at h
    simp only [bind_assoc] at h
    obtain ⟨c, hc, h⟩ := bind_ok h
    obtain ⟨hi, hhi, h⟩ := bind_ok h
    obtain ⟨d, hd, h⟩ := bind_ok h
    obtain ⟨lo, hlo, h⟩ := bind_ok h
    rw [unhexLoop]
    simp only [branch, hc, hhi, hd, hlo, seen_ok, ok_bind]
    by_cases hb : hi = 0xFF ∨ lo = 0xFF
    · rw [if_pos hb] at h ⊢
      cases h
      refine ⟨_, rfl, ?_⟩
      have := work_ite (hi = 0xFF) (lo = 0xFF)
      simp only [work_append, work_cons, work_nil, cost_load, cost_branch]
      omega
    · rw [if_neg hb] at h ⊢
      simp only [bind_assoc] at h
      obtain ⟨b, hw, h⟩ := bind_ok h
      obtain ⟨t, h1, h2⟩ := ih (j + 1) (b, s.2 + 1) r h
      rw [hw, seen_ok, ok_bind, h1]
      refine ⟨_, rfl, ?_⟩
      have := work_ite (hi = 0xFF) (lo = 0xFF)
      simp only [work_append, work_cons, work_nil, cost_load, cost_store, cost_branch]
      omega

theorem fromHex_costs (str : Ptr) (n : Nat) (dst : String) (buf : List Byte) :
    Costs (fromHex str n dst buf) (Hex.fromHex str.mem n buf) (4 * n + 1) := by
  intro r h
  obtain ⟨t, h1, h2⟩ := unhexLoop_costs str dst (n / 2) 0 (buf, 0) r h
  exact ⟨t, h1, by omega⟩

/-- What is left of a text of `M` characters. -/
def Tail (rest : List Byte) (M : Nat) (s : List Byte) : Prop := ∃ text, s = text ++ 0#8 :: rest ∧ text.length ≤ M

theorem skipSpaces_tail (cs : Bool) (rest : List Byte) : ∀ (text : List Byte) (n : Nat) (r : List Byte × Nat),
    Base58.skipSpaces cs (text ++ 0#8 :: rest) n = .ok r → Tail rest text.length r.1
  | [], n, r, h => by
    rw [List.nil_append, Base58.skipSpaces, if_pos rfl] at h
    cases h
    exact ⟨[], rfl, Nat.le_refl _⟩
  | c :: text, n, r, h => by
    rw [List.cons_append, Base58.skipSpaces] at h
    by_cases hc : c = 0#8
    · rw [if_pos hc] at h
      cases h
      exact ⟨c :: text, rfl, Nat.le_refl _⟩
    · rw [if_neg hc] at h
      obtain ⟨sp, hsp, h⟩ := bind_ok h
      cases sp with
      | true =>
        obtain ⟨t, h1, h2⟩ := skipSpaces_tail cs rest text (n + 1) r h
        exact ⟨t, h1, by rw [List.length_cons]; omega⟩
      | false => cases h; exact ⟨c :: text, rfl, Nat.le_refl _⟩

theorem countOnes_tail (rest : List Byte) : ∀ (text : List Byte) (n : Nat) (r : List Byte × Nat),
    Base58.countOnes (text ++ 0#8 :: rest) n = .ok r → Tail rest text.length r.1 ∧ r.2 ≤ n + text.length
  | [], n, r, h => by
    rw [List.nil_append, Base58.countOnes, if_neg (by decide)] at h
    cases h
    exact ⟨⟨[], rfl, Nat.le_refl _⟩, Nat.le_refl _⟩
  | c :: text, n, r, h => by
    rw [List.cons_append, Base58.countOnes] at h
    by_cases hc : c = chr '1'
    · rw [if_pos hc] at h
      obtain ⟨⟨t, h1, h2⟩, h3⟩ := countOnes_tail rest text (n + 1) r h
      exact ⟨⟨t, h1, by rw [List.length_cons]; omega⟩, by rw [List.length_cons]; omega⟩
    · rw [if_neg hc] at h
      cases h
      exact ⟨⟨c :: text, rfl, Nat.le_refl _⟩, by simp⟩

theorem digitLoop_tail (cs : Bool) (size : Nat) (rest : List Byte) : ∀ (text b : List Byte) (l : Nat) (s b' : List Byte) (l' : Nat), l ≤ size →
    Base58.digitLoop cs size (text ++ 0#8 :: rest) b l = .ok (some (s, b', l')) → Tail rest text.length s ∧ l' ≤ size
  | [], b, l, s, b', l', hl, h => by
    rw [List.nil_append, Base58.digitLoop, if_pos rfl] at h
    cases h
    exact ⟨⟨[], rfl, Nat.le_refl _⟩, hl⟩
  | c :: text, b, l, s, b', l', hl, h => by
    rw [List.cons_append, Base58.digitLoop] at h
    by_cases hc : c = 0#8
    · rw [if_pos hc] at h
      cases h
      exact ⟨⟨c :: text, rfl, Nat.le_refl _⟩, hl⟩
    · rw [if_neg hc] at h
      obtain ⟨sp, hsp, h⟩ := bind_ok h
      cases sp with
      | true => cases h; exact ⟨⟨c :: text, rfl, Nat.le_refl _⟩, hl⟩
      | false =>
        simp only [Bool.false_eq_true, if_false] at h
        obtain ⟨v, hv, h⟩ := bind_ok h
        by_cases hv1 : v = -1
        · rw [if_pos hv1] at h; cases h
        · rw [if_neg hv1] at h
          obtain ⟨x, hx, h⟩ := bind_ok h
          obtain ⟨_, _, h⟩ := bind_ok h
          have hi := carryLoop_count _ _ _ _ _ _ _ _ hx
          rw [Nat.zero_add] at hi
          obtain ⟨⟨t, h1, h2⟩, h3⟩ := digitLoop_tail cs size rest text _ _ s b' l' hi h
          exact ⟨⟨t, h1, by rw [List.length_cons]; omega⟩, h3⟩

theorem skipSpaces_costs (cs : Bool) (obj : String) (rest : List Byte) : ∀ (text : List Byte) (p n : Nat),
    Costs (skipSpaces cs obj p (text ++ 0#8 :: rest) n) (Base58.skipSpaces cs (text ++ 0#8 :: rest) n) (4 * text.length + 4)
  | [], p, n => by
    rw [List.nil_append, skipSpaces, Base58.skipSpaces]
    exact costs_mono (costs_extra (c := 2) (by simp) (by rw [if_pos rfl, if_pos rfl]; exact costs_pure _)) (by omega)
  | c :: text, p, n => by
    rw [List.cons_append, skipSpaces, Base58.skipSpaces, List.length_cons]
    refine costs_mono (costs_extra (c := 2) (d := 1 + (1 + (4 * text.length + 4))) (by simp) ?_) (by omega)
    by_cases hc : c = 0#8
    · rw [if_pos hc, if_pos hc]; exact costs_mono (costs_pure _) (Nat.zero_le _)
    · rw [if_neg hc, if_neg hc]
      refine costs_bind (costs_seen _ (by simp)) fun sp _ => costs_extra (by simp) ?_
      cases sp with
      | true => exact skipSpaces_costs cs obj rest text (p + 1) (n + 1)
      | false => exact costs_mono (costs_pure _) (Nat.zero_le _)

theorem countOnes_costs (obj : String) (rest : List Byte) : ∀ (text : List Byte) (p n : Nat),
    Costs (countOnes obj p (text ++ 0#8 :: rest) n) (Base58.countOnes (text ++ 0#8 :: rest) n) (2 * text.length + 2)
  | [], p, n => by
    rw [List.nil_append, countOnes, Base58.countOnes]
    exact costs_mono (costs_extra (c := 2) (by simp) (by rw [if_neg (by decide), if_neg (by decide)]; exact costs_pure _)) (by omega)
  | c :: text, p, n => by
    rw [List.cons_append, countOnes, Base58.countOnes, List.length_cons]
    refine costs_mono (costs_extra (c := 2) (d := (2 * text.length + 2)) (by simp) ?_) (by omega)
    by_cases hc : c = chr '1'
    · rw [if_pos hc, if_pos hc]; exact countOnes_costs obj rest text (p + 1) (n + 1)
    · rw [if_neg hc, if_neg hc]; exact costs_mono (costs_pure _) (Nat.zero_le _)

theorem digitLoop_costs (cs : Bool) (size : Nat) (obj : String) (rest : List Byte) : ∀ (text : List Byte) (p : Nat) (b : List Byte) (l : Nat),
    Costs (digitLoop cs size obj p (text ++ 0#8 :: rest) b l) (Base58.digitLoop cs size (text ++ 0#8 :: rest) b l)
      (text.length * (5 * size + 10) + 4)
  | [], p, b, l => by
    rw [List.nil_append, digitLoop, Base58.digitLoop]
    exact costs_mono (costs_extra (c := 2) (by simp) (by rw [if_pos rfl, if_pos rfl]; exact costs_pure _)) (by omega)
  | c :: text, p, b, l => by
    rw [List.cons_append, digitLoop, Base58.digitLoop, List.length_cons, Nat.add_mul]
    refine costs_mono (costs_extra (c := 2) (d := 1 + (1 + (1 + (1 + ((5 * size + 3) + (1 + (text.length * (5 * size + 10) + 4))))))) (by simp) ?_)
      (by omega)
    by_cases hc : c = 0#8
    · rw [if_pos hc, if_pos hc]; exact costs_mono (costs_pure _) (Nat.zero_le _)
    · rw [if_neg hc, if_neg hc]
      refine costs_bind (costs_seen _ (by simp)) fun sp _ => costs_extra (by simp) ?_
      cases sp with
      | true => exact costs_mono (costs_pure _) (Nat.zero_le _)
      | false =>
        simp only [Bool.false_eq_true, if_false]
        refine costs_bind (costs_seen _ (by simp)) fun v _ => costs_extra (by simp) ?_
        by_cases hv : v = -1
        · rw [if_pos hv, if_pos hv]; exact costs_mono (costs_pure _) (Nat.zero_le _)
        · rw [if_neg hv, if_neg hv]
          refine costs_bind (carryLoop_costs 256 58 _ _ _ _ _ _) fun x _ => ?_
          refine costs_bind (costs_seen _ (by simp)) fun _ _ => ?_
          exact digitLoop_costs cs size obj rest text (p + 1) _ _

theorem skipTrailing_costs (cs : Bool) (obj : String) (rest : List Byte) : ∀ (text : List Byte) (p : Nat),
    Costs (skipTrailing cs obj p (text ++ 0#8 :: rest)) (Base58.skipTrailing cs (text ++ 0#8 :: rest)) (3 * text.length + 3)
  | [], p => by
    have e : Base58.isspace cs 0#8 = .ok false := by cases cs <;> decide
    rw [List.nil_append, skipTrailing, Base58.skipTrailing, e]
    exact costs_bind (d := 1) (c := 2) (costs_seen _ (by simp)) fun sp h => by
      cases h
      exact costs_extra (c := 1) (by simp) (costs_pure _)
  | c :: text, p => by
    rw [List.cons_append, skipTrailing, Base58.skipTrailing, List.length_cons]
    refine costs_mono (costs_bind (c := 2) (d := 1 + (3 * text.length + 3)) (costs_seen _ (by simp)) fun sp _ =>
      costs_extra (by simp) ?_) (by omega)
    cases sp with
    | true => exact skipTrailing_costs cs obj rest text (p + 1)
    | false => exact costs_mono (costs_pure _) (Nat.zero_le _)

theorem inLoop_costs (b256 : List Byte) (dst : String) (z iter0 : Nat) : ∀ k iter out, iter0 ≤ iter →
    Costs (inLoop b256 dst iter (z + (iter - iter0)) k out) (forLoop (Base58.decOut b256 z iter0) iter k out) (3 * k + 1) := by
  intro k
  induction k with
  | zero => intro iter out _; exact costs_mono (costs_extra (c := 1) (by simp) (costs_pure out)) (by omega)
  | succ k ih =>
    intro iter out hi
    rw [inLoop, forLoop, Base58.decOut]
    simp only [bind_assoc]
    refine costs_mono (costs_extra (c := 1) (by simp) (costs_bind (c := 1) (d := 1 + (3 * k + 1)) (costs_seen _ (by simp)) fun d _ =>
      costs_bind (costs_seen _ (by simp)) fun s _ => ?_)) (by omega)
    have := ih (iter + 1) s (by omega)
    rwa [show z + (iter + 1 - iter0) = z + (iter - iter0) + 1 by omega] at this

theorem workSize_le {n a b : Nat} {size : Nat} (h : Base58.workSize ((n : Int) - (a : Int) - (b : Int)) = .ok size) :
    1000 * size ≤ 733 * n + 1000 := by
  unfold Base58.workSize at h
  split at h
  · cases h
  · simp only at h
    split at h
    · cases h
    · rename_i h1 h2
      have := Res.ok.inj h
      by_cases hd : 0 ≤ ((n : Int) - (a : Int) - (b : Int)) * 733
      · rw [Int.tdiv_eq_ediv_of_nonneg hd] at h2 this
        omega
      · have h3 := Int.tdiv_nonneg (a := -(((n : Int) - (a : Int) - (b : Int)) * 733)) (b := 1000) (by omega) (by omega)
        rw [Int.neg_tdiv] at h3
        omega

/-- Reading a text of `M` characters, announced as `n`, with a work area of `s` bytes. -/
def readBound (M s : Nat) : Nat := M * (5 * s + 20) + 10 * s + 30

theorem fromBase58_costs (cs : Bool) (obj : String) (text rest : List Byte) (n : Nat) (dst : String) (buf : List Byte) :
    Costs (fromBase58 cs ⟨obj, 0, text ++ 0#8 :: rest⟩ n dst buf) (Base58.fromBase58 cs (text ++ 0#8 :: rest) n buf)
      (readBound text.length ((733 * n + 1000) / 1000)) := by
  unfold fromBase58 Base58.fromBase58
  generalize hS : (733 * n + 1000) / 1000 = S
  have hb : (4 * text.length + 4) + ((2 * text.length + 2) + (0 + (1 + (S + ((text.length * (5 * S + 10) + 4) + ((3 * text.length + 3) + (0 + (1 +
      ((3 * S + 1) + (text.length + ((3 * S + 1) + (S + 1)))))))))))) ≤ readBound text.length S := by
    unfold readBound
    nlinarith
  refine costs_mono ?_ hb
  refine costs_bind (skipSpaces_costs cs obj rest text 0 0) fun a ha => ?_
  obtain ⟨x1, sk⟩ := a
  obtain ⟨t1, rfl, l1⟩ := skipSpaces_tail cs rest text 0 _ ha
  simp only
  refine costs_bind (costs_mono (countOnes_costs obj rest t1 _ 0) (by omega)) fun a ha => ?_
  obtain ⟨x2, z⟩ := a
  obtain ⟨⟨t2, h2, l2⟩, hz⟩ := countOnes_tail rest t1 0 _ ha
  simp only at h2 hz ⊢
  subst h2
  split
  · exact costs_ub
  refine costs_bind (costs_seen _ (by simp)) fun size hsize => ?_
  have hs := workSize_le hsize
  have hs' : size ≤ S := by omega
  refine costs_extra (by simp) (costs_extra (by simpa using hs') ?_)
  refine costs_bind (costs_mono (digitLoop_costs cs size obj rest t2 _ _ _) ?_) fun r hr => ?_
  · have : t2.length * (5 * size + 10) ≤ text.length * (5 * S + 10) := Nat.mul_le_mul (by omega) (by omega)
    omega
  match r, hr with
  | none, _ => exact costs_mono (cleanup_costs _ _ _ _) (by omega)
  | some (x3, b, l), hr =>
    obtain ⟨⟨t3, h3, l3⟩, hl⟩ := digitLoop_tail cs size rest t2 _ _ x3 b l (Nat.zero_le _) hr
    subst h3
    simp only
    refine costs_bind (costs_mono (skipTrailing_costs cs obj rest t3 _) (by omega)) fun x4 _ => ?_
    refine costs_bind (costs_seen _ (by simp)) fun c _ => costs_extra (by simp) ?_
    by_cases hc : c ≠ 0#8
    · rw [if_pos hc, if_pos hc]
      exact costs_mono (cleanup_costs _ _ _ _) (by omega)
    · rw [if_neg hc, if_neg hc]
      refine costs_bind (costs_mono (skipZeroes_costs ⟨"b256", 0, b⟩ _ _) (by omega)) fun it hit => ?_
      refine costs_bind (costs_seen _ (by simp; omega)) fun out _ => ?_
      have ho := inLoop_costs b dst z it (size - it) it out (Nat.le_refl _)
      rw [Nat.sub_self, Nat.add_zero] at ho
      refine costs_bind (costs_mono ho (by omega)) fun out2 _ => ?_
      exact costs_mono (cleanup_costs _ _ _ _) (by omega)

/-! ### Base58Check and keys -/

theorem fromBase58_count (cs : Bool) (text rest : List Byte) (n : Nat) (buf : List Byte) (r : List Byte × Nat)
    (h : Base58.fromBase58 cs (text ++ 0#8 :: rest) n buf = .ok r) : r.2 ≤ text.length + (733 * n + 1000) / 1000 := by
  unfold Base58.fromBase58 at h
  obtain ⟨a, ha, h⟩ := bind_ok h
  obtain ⟨x1, sk⟩ := a
  obtain ⟨t1, rfl, l1⟩ := skipSpaces_tail cs rest text 0 _ ha
  simp only at h
  obtain ⟨a, ha, h⟩ := bind_ok h
  obtain ⟨x2, z⟩ := a
  obtain ⟨⟨t2, h2, l2⟩, hz⟩ := countOnes_tail rest t1 0 _ ha
  simp only at h2 hz h
  subst h2
  split at h
  · cases h
  obtain ⟨size, hsize, h⟩ := bind_ok h
  have hs := workSize_le hsize
  obtain ⟨d, hd, h⟩ := bind_ok h
  match d, hd, h with
  | none, _, h => cases h; exact Nat.zero_le _
  | some (x3, b, l), hr, h =>
    simp only at h
    obtain ⟨x4, _, h⟩ := bind_ok h
    obtain ⟨c, _, h⟩ := bind_ok h
    by_cases hc : c ≠ 0#8
    · rw [if_pos hc] at h; cases h; exact Nat.zero_le _
    · rw [if_neg hc] at h
      obtain ⟨it, _, h⟩ := bind_ok h
      obtain ⟨o1, _, h⟩ := bind_ok h
      obtain ⟨o2, _, h⟩ := bind_ok h
      cases h
      simp only
      omega

theorem memeqL_costs (a b : Ptr) (n : Nat) : Costs (memeqL a b n) (memeq a.mem b.mem n) (2 * n + 2) := by
  unfold memeqL
  intro r h
  rw [h]
  exact ⟨_, rfl, by simp; omega⟩

theorem fromBase58Check_costs (host : Host) (cs : Bool) (obj : String) (text rest : List Byte) (n : Nat) (dst : String) (buf : List Byte) :
    Costs (fromBase58Check host cs ⟨obj, 0, text ++ 0#8 :: rest⟩ n dst buf)
      (Base58Check.fromBase58Check host cs (text ++ 0#8 :: rest) n buf)
      (readBound text.length ((733 * n + 1000) / 1000) + (3 * (text.length + (733 * n + 1000) / 1000) + 1507)) := by
  unfold fromBase58Check Base58Check.fromBase58Check
  simp only
  refine costs_bind (fromBase58_costs cs obj text rest n dst buf) fun a ha => ?_
  have hc := fromBase58_count cs text rest n buf a ha
  obtain ⟨b, m⟩ := a
  simp only at hc ⊢
  refine costs_mono (costs_extra (c := 1) (d := 3 * (text.length + (733 * n + 1000) / 1000) + 1496 + 10) (by simp) ?_) (by omega)
  by_cases hm : m < 4
  · rw [if_pos hm, if_pos hm]; exact costs_mono (costs_pure _) (Nat.zero_le _)
  · rw [if_neg hm, if_neg hm]
    refine costs_bind (costs_of_shows (hash256_shows host ⟨dst, 0, b⟩ (m - 4) "hash" _) ?_) fun d _ => ?_
    · have := work_hash256 dst 0 (m - 4) "hash"
      simp only
      omega
    refine costs_bind (c := 10) (d := 0) (memeqL_costs ⟨"hash", 0, d⟩ ⟨dst, m - 4, b.drop (m - 4)⟩ 4) fun s _ => ?_
    cases s <;> exact costs_pure _

theorem wifFinish_costs (a k : List Byte) (c : Int) (param : ChainParameters) :
    Costs (wifFinish a k c param) (Key.wifFinish a k c param) (2 * param.prefixSecretKeySize + 66) := by
  unfold wifFinish Key.wifFinish
  refine costs_mono (costs_bind (d := 64) (memeqL_costs ⟨"buf", 0, a⟩ ⟨"prefix_secret_key", 0, param.prefixSecretKey⟩
    param.prefixSecretKeySize) fun s _ => ?_) (by omega)
  cases s with
  | false => exact costs_mono (costs_pure _) (Nat.zero_le _)
  | true => exact costs_bind (d := 0) (c := 64) (costs_seen _ (by simp)) fun p _ => costs_pure _

theorem assertL_costs (nd c : Bool) : Costs (assertL nd c) (assertNd nd c) 1 := by
  unfold assertL
  exact costs_seen _ (by cases nd <;> simp)

theorem keyFromString_costs (nd : Bool) (host : Host) (cs : Bool) (text rest : List Byte) (n : Nat) (k : List Byte) (c : Int)
    (param : ChainParameters) (hp : param.prefixSecretKeySize ≤ 8) :
    Costs (keyFromString nd host cs ⟨"str", 0, text ++ 0#8 :: rest⟩ n k c param)
      (Key.keyFromString nd host cs (text ++ 0#8 :: rest) n k c param)
      (readBound text.length ((733 * n + 1000) / 1000) + (3 * (text.length + (733 * n + 1000) / 1000) + 1620)) := by
  unfold keyFromString Key.keyFromString
  simp only
  refine costs_mono (costs_bind (assertL_costs nd _) fun _ _ => costs_bind (d := 96) (fromBase58Check_costs host cs "str" text rest n "buf" _) fun a _ => ?_)
    (by omega)
  obtain ⟨b, m⟩ := a
  simp only
  refine costs_mono (costs_extra (c := 1) (d := 95) (by simp) ?_) (by omega)
  by_cases hm : m ≤ 32
  · rw [if_pos hm, if_pos hm]; exact costs_mono (costs_pure _) (Nat.zero_le _)
  · rw [if_neg hm, if_neg hm]
    refine costs_mono (costs_extra (c := 1) (d := 94) (by simp) ?_) (by omega)
    by_cases h1 : param.prefixSecretKeySize ≠ m - 32
    · rw [if_pos h1, if_pos h1]
      refine costs_mono (costs_extra (c := 1) (d := 93) (by simp) ?_) (by omega)
      by_cases h2 : param.prefixSecretKeySize ≠ m - 32 - 1
      · rw [if_pos h2, if_pos h2]; exact costs_mono (costs_pure _) (Nat.zero_le _)
      · rw [if_neg h2, if_neg h2]
        refine costs_mono (costs_bind (c := 1) (d := 92) (costs_seen _ (by simp)) fun v _ => ?_) (by omega)
        refine costs_mono (costs_extra (c := 1) (d := 91) (by simp) ?_) (by omega)
        by_cases h3 : v ≠ 1#8
        · rw [if_pos h3, if_pos h3]; exact costs_mono (costs_pure _) (Nat.zero_le _)
        · rw [if_neg h3, if_neg h3]
          exact costs_mono (costs_extra (c := 4) (by simp) (wifFinish_costs b k 1 param)) (by omega)
    · rw [if_neg h1, if_neg h1]
      exact costs_mono (costs_extra (c := 4) (by simp) (wifFinish_costs b k 0 param)) (by omega)

theorem exkeyFromString_costs (nd : Bool) (host : Host) (cs : Bool) (text rest : List Byte) (n : Nat) (k : Exkey.ExKey)
    (param : ChainParameters) :
    Costs (exkeyFromString nd host cs ⟨"str", 0, text ++ 0#8 :: rest⟩ n k param)
      (Exkey.exkeyFromString nd host cs (text ++ 0#8 :: rest) n k param)
      (readBound text.length ((733 * n + 1000) / 1000) + (3 * (text.length + (733 * n + 1000) / 1000) + 1800)) := by
  unfold exkeyFromString Exkey.exkeyFromString
  simp only
  refine costs_mono (costs_bind (assertL_costs nd _) fun _ _ => costs_bind (d := 260) (fromBase58Check_costs host cs "str" text rest n "extkey" _) fun a _ => ?_)
    (by omega)
  obtain ⟨b, m⟩ := a
  simp only
  refine costs_mono (costs_bind (d := 256) (assertL_costs nd _) fun _ _ => ?_) (by omega)
  refine costs_mono (costs_extra (c := 2) (d := 254) (by split <;> simp) ?_) (by omega)
  by_cases hm : m ≤ 74 ∨ m > 82
  · rw [if_pos hm, if_pos hm]; exact costs_mono (costs_pure _) (Nat.zero_le _)
  · rw [if_neg hm, if_neg hm]
    refine costs_mono (costs_extra (c := 1) (d := 253) (by simp) ?_) (by omega)
    by_cases h1 : m - 74 ≠ param.prefixExtSecretKeySize
    · rw [if_pos h1, if_pos h1]; exact costs_mono (costs_pure _) (Nat.zero_le _)
    · rw [if_neg h1, if_neg h1]
      refine costs_mono (costs_bind (d := 228) (memeqL_costs ⟨"extkey", 0, b⟩ ⟨"prefix_ext_secret_key", 0, param.prefixExtSecretKey⟩ (m - 74))
        fun s _ => ?_) (by omega)
      cases s with
      | false => exact costs_mono (costs_pure _) (Nat.zero_le _)
      | true =>
        exact costs_bind (c := 146) (d := 82) (costs_of_shows (exkeyDecode_shows host ⟨"extkey", m - 74, b.drop (m - 74)⟩ k) (by simp)) fun kk _ =>
          costs_extra (c := 82) (by simp) (costs_pure _)

theorem toBase58Check_costs (host : Host) (buf : Ptr) (n : Nat) (pre : List Byte) (m : Nat) (str : List Byte) :
    Costs (toBase58Check host buf n pre m str) (Base58Check.toBase58Check host buf.mem n pre m str)
      (7 * (n + m + 4) ^ 2 + 34 * (n + m + 4) + 1530) := by
  unfold toBase58Check Base58Check.toBase58Check
  simp only
  refine costs_mono (c := 1 + (2 * m + (2 * n + ((3 * (n + m) + 1496) + (8 + ((7 * (n + m + 4) ^ 2 + 28 * (n + m + 4) + 20) + (n + m + 4 + 1))))))) ?_ (by omega)
  refine costs_extra (by simp) ?_
  refine costs_bind (costs_seen _ (by simp; omega)) fun b1 _ => ?_
  refine costs_bind (costs_seen _ (by simp; omega)) fun b2 _ => ?_
  refine costs_bind (costs_of_shows (hash256_shows host ⟨"buffer", 0, b2⟩ (n + m) "hash" _) ?_) fun d _ => ?_
  · have := work_hash256 "buffer" 0 (n + m) "hash"
    simp only
    omega
  refine costs_bind (costs_seen _ (by simp)) fun b3 _ => ?_
  exact costs_last (toBase58_costs ⟨"buffer", 0, b3⟩ (n + m + 4) str) fun r => cleanup_costs _ _ _ _

theorem keyToString_costs (host : Host) (key : Ptr) (str : List Byte) (c : Bool) (param : ChainParameters)
    (hp : param.prefixSecretKeySize ≤ 8) :
    Costs (keyToString host key str c param) (Key.keyToString host key.mem str c param) 18000 := by
  have hb : ∀ n, n ≤ 33 → 7 * (n + param.prefixSecretKeySize + 4) ^ 2 + 34 * (n + param.prefixSecretKeySize + 4) + 1530 ≤ 17300 := by
    intro n hn
    have h1 : n + param.prefixSecretKeySize + 4 ≤ 45 := by omega
    have h2 := Nat.pow_le_pow_left h1 2
    omega
  unfold keyToString Key.keyToString
  refine costs_mono (costs_extra (c := 1) (d := 17999) (by simp) ?_) (by omega)
  cases c with
  | true =>
    simp only [if_true]
    refine costs_mono (costs_bind (c := 64) (d := 17900) (costs_seen _ (by simp)) fun b1 _ => ?_) (by omega)
    refine costs_mono (costs_bind (c := 1) (d := 17800) (costs_seen _ (by simp)) fun b2 _ => ?_) (by omega)
    exact costs_mono (costs_last (d := 33) (costs_mono (toBase58Check_costs host ⟨"buf33", 0, b2⟩ 33 _ _ str) (hb 33 (by omega))) fun r =>
      costs_mono (costs_extra (c := 33) (by simp) (costs_pure r)) (by omega)) (by omega)
  | false =>
    exact costs_mono (toBase58Check_costs host key 32 _ _ str) (Nat.le_trans (hb 32 (by omega)) (by omega))

theorem exkeyToString_costs (host : Host) (k : Exkey.ExKey) (str : List Byte) (param : ChainParameters)
    (hp : param.prefixExtSecretKeySize ≤ 8) :
    Costs (exkeyToString host k str param) (Exkey.exkeyToString host k str param) 58000 := by
  have h1 : 74 + param.prefixExtSecretKeySize + 4 ≤ 86 := by omega
  have h2 := Nat.pow_le_pow_left h1 2
  unfold exkeyToString Exkey.exkeyToString
  refine costs_mono (costs_bind (c := 148) (d := 57000) (costs_of_shows (exkeyEncode_shows host k "extkey" _) (by simp [exkeyEncodeT])) fun b1 _ => ?_) (by omega)
  exact costs_mono (costs_last (d := 74) (toBase58Check_costs host ⟨"extkey", 0, b1⟩ 74 _ _ str) fun r =>
      costs_mono (costs_extra (c := 74) (by simp) (costs_pure r)) (by omega)) (by omega)

end Leakage
