import Verif.Props.Base32
/-! `fingera_from_base32` on every NUL-terminated string and `fingera_from_base32_raw` on every object: the exact result, also with
negative characters (where `char` is signed) and with a buffer that is too small. -/
set_option linter.unusedTactic false
set_option linter.unusedSimpArgs false
set_option linter.unreachableTactic false
namespace Base32
open Base32Spec

/-- A character that is negative where `char` is signed (`cs`). -/
def Neg (cs : Bool) (c : Byte) : Prop := cs = true ∧ 128 ≤ c.toNat

instance (cs : Bool) (c : Byte) : Decidable (Neg cs c) := inferInstanceAs (Decidable (_ ∧ _))

/-- The characters the decoder looks at: the groups of eight up to and including the first one with an illegal character; if there is
none, also the incomplete last group, provided it has 2, 4, 5 or 7 characters. -/
def reads (raw : Bool) : List Byte → List Byte
  | a :: b :: c :: d :: e :: f :: g :: h :: rest =>
    if decVal raw a = 0xFF#8 ∨ decVal raw b = 0xFF#8 ∨ decVal raw c = 0xFF#8 ∨ decVal raw d = 0xFF#8 ∨
       decVal raw e = 0xFF#8 ∨ decVal raw f = 0xFF#8 ∨ decVal raw g = 0xFF#8 ∨ decVal raw h = 0xFF#8 then [a, b, c, d, e, f, g, h]
    else [a, b, c, d, e, f, g, h] ++ reads raw rest
  | [a, b] => [a, b]
  | [a, b, c, d] => [a, b, c, d]
  | [a, b, c, d, e] => [a, b, c, d, e]
  | [a, b, c, d, e, f, g] => [a, b, c, d, e, f, g]
  | _ => []

theorem decAt_get (cs raw : Bool) (str : List Byte) (i : Nat) (c : Byte) (h : str[i]? = some c) :
    decAt cs raw str i = if Neg cs c then .ub else .ok (decVal raw c) := by
  unfold decAt
  rw [rd, h]
  simp only [Res.ok_bind, rd_decodeStr]
  cases cs <;> simp [Neg]

theorem wr_over_ub {α : Type} (W out : List α) (b : α) (i : Nat) (hi : i = W.length) (h : W.length ≤ out.length)
    (hb : ¬ W.length < out.length) : wr (over W out) i b = .ub := by
  have := over_length W out h
  rw [wr, if_neg (by omega)]

theorem wrs_over_ub {α : Type} (vs W out : List α) (p : Nat) (hp : p = W.length) (hW : W.length ≤ out.length)
    (h : out.length < W.length + vs.length) : wrs (over W out) p vs = .ub := by
  induction vs generalizing W p with
  | nil => rw [List.length_nil] at h; omega
  | cons v vs ih =>
    rw [List.length_cons] at h
    by_cases hlt : W.length < out.length
    · rw [wrs, wr_over _ _ _ _ hp hlt, Res.ok_bind, ih (W ++ [v]) (p + 1) (by simp [hp]) (by simp; omega) (by simp; omega)]
    · rw [wrs, wr_over_ub _ _ _ _ hp hW hlt]; rfl

theorem decTail_total (cs raw : Bool) (str buf W L : List Byte) (n : Nat) (hlt : L.length < 8)
    (hget : ∀ k, k < L.length → str[n*8+k]? = L[k]?) (hW : W.length = 5 * n) (hWb : W.length ≤ buf.length) :
    decTail cs raw str n L.length (over W buf) =
      if (∃ b ∈ reads raw L, Neg cs b) ∨ buf.length < (W ++ decPure raw L).length then .ub
      else .ok (over (W ++ decPure raw L) buf, 5 * n + (decPure raw L).length) := by
  have G : ∀ k c, L[k]? = some c → decAt cs raw str (n*8+k) = if Neg cs c then .ub else .ok (decVal raw c) := by
    intro k c hk
    refine decAt_get cs raw str _ c ?_
    rw [hget k (List.getElem?_eq_some_iff.mp hk).1, hk]
  have wrx : ∀ (V : List Byte) (v : Byte) (i : Nat), i = V.length → V.length ≤ buf.length →
      wr (over V buf) i v = if V.length < buf.length then .ok (over (V ++ [v]) buf) else .ub := by
    intro V v i hi hV
    split
    · exact wr_over V buf v i hi ‹_›
    · exact wr_over_ub V buf v i hi hV ‹_›
  have ex4 : ∀ (x : Byte) (l : List Byte), (∃ b ∈ x :: l, Neg cs b) ↔ Neg cs x ∨ ∃ b ∈ l, Neg cs b := by
    intro x l; simp
  have exn : (∃ b ∈ ([] : List Byte), Neg cs b) ↔ False := by simp
  unfold decTail
  rw [rd_tail _ hlt]
  simp only [Res.ok_bind]
  match L, hlt with
  | [], _ => simp [decLen, reads, decPure, tailBytes]; omega
  | [a], _ => simp [decLen, reads, decPure, tailBytes]; omega
  | [a, b, c], _ => simp [decLen, reads, decPure, tailBytes]; omega
  | [a, b, c, d, e, f], _ => simp [decLen, reads, decPure, tailBytes]; omega
  | [a, b], _ =>
    have g0 := G 0 a rfl
    have g1 := G 1 b rfl
    simp only [Nat.add_zero] at g0
    have hdl : decLen [a, b].length = 1 := by simp [decLen]
    simp only [hdl, gt_iff_lt, show (0:Nat) < 1 by decide, Nat.lt_irrefl, if_true, if_false, g0, g1]
    simp only [reads, ex4, exn, decPure, tailBytes, List.map_cons, List.map_nil]
    by_cases n0 : Neg cs a
    · simp [n0]
    simp only [n0, if_false, Res.ok_bind, false_or]
    by_cases n1 : Neg cs b
    · simp [n1]
    simp only [n1, if_false, Res.ok_bind, false_or]
    by_cases w0 : W.length + 0 < buf.length
    case neg =>
      rw [wrx _ _ _ (by first | omega | (simp; omega)) (by first | omega | (simp; omega)),
        if_neg (by first | omega | (simp; omega))]
      refine Eq.trans (b := Res.ub) rfl ?_
      rw [if_pos (by first | exact Or.inr (by simp; omega) | (simp; omega))]
    rw [wrx _ _ _ (by first | omega | (simp; omega)) (by first | omega | (simp; omega)),
        if_pos (by first | omega | (simp; omega))]
    simp only [Res.ok_bind]
    rw [if_neg (by simp; omega)]
    simp
  | [a, b, c, d], _ =>
    have g0 := G 0 a rfl
    have g1 := G 1 b rfl
    have g2 := G 2 c rfl
    have g3 := G 3 d rfl
    simp only [Nat.add_zero] at g0
    have hdl : decLen [a, b, c, d].length = 2 := by simp [decLen]
    simp only [hdl, gt_iff_lt, show (0:Nat) < 2 by decide, show (1:Nat) < 2 by decide, Nat.lt_irrefl, if_true, if_false, g0, g1, g2, g3]
    simp only [reads, ex4, exn, decPure, tailBytes, List.map_cons, List.map_nil]
    by_cases n0 : Neg cs a
    · simp [n0]
    simp only [n0, if_false, Res.ok_bind, false_or]
    by_cases n1 : Neg cs b
    · simp [n1]
    simp only [n1, if_false, Res.ok_bind, false_or]
    by_cases w0 : W.length + 0 < buf.length
    case neg =>
      rw [wrx _ _ _ (by first | omega | (simp; omega)) (by first | omega | (simp; omega)),
        if_neg (by first | omega | (simp; omega))]
      refine Eq.trans (b := Res.ub) rfl ?_
      rw [if_pos (by first | exact Or.inr (by simp; omega) | (simp; omega))]
    rw [wrx _ _ _ (by first | omega | (simp; omega)) (by first | omega | (simp; omega)),
        if_pos (by first | omega | (simp; omega))]
    simp only [Res.ok_bind]
    by_cases n2 : Neg cs c
    · simp [n2]
    simp only [n2, if_false, Res.ok_bind, false_or]
    by_cases n3 : Neg cs d
    · simp [n3]
    simp only [n3, if_false, Res.ok_bind, false_or]
    by_cases w1 : W.length + 1 < buf.length
    case neg =>
      rw [wrx _ _ _ (by first | omega | (simp; omega)) (by first | omega | (simp; omega)),
        if_neg (by first | omega | (simp; omega))]
      refine Eq.trans (b := Res.ub) rfl ?_
      rw [if_pos (by first | exact Or.inr (by simp; omega) | (simp; omega))]
    rw [wrx _ _ _ (by first | omega | (simp; omega)) (by first | omega | (simp; omega)),
        if_pos (by first | omega | (simp; omega))]
    simp only [Res.ok_bind]
    rw [if_neg (by simp; omega)]
    simp
  | [a, b, c, d, e], _ =>
    have g0 := G 0 a rfl
    have g1 := G 1 b rfl
    have g2 := G 2 c rfl
    have g3 := G 3 d rfl
    have g4 := G 4 e rfl
    simp only [Nat.add_zero] at g0
    have hdl : decLen [a, b, c, d, e].length = 3 := by simp [decLen]
    simp only [hdl, gt_iff_lt, show (0:Nat) < 3 by decide, show (1:Nat) < 3 by decide, show (2:Nat) < 3 by decide, Nat.lt_irrefl, if_true, if_false, g0, g1, g2, g3, g4]
    simp only [reads, ex4, exn, decPure, tailBytes, List.map_cons, List.map_nil]
    by_cases n0 : Neg cs a
    · simp [n0]
    simp only [n0, if_false, Res.ok_bind, false_or]
    by_cases n1 : Neg cs b
    · simp [n1]
    simp only [n1, if_false, Res.ok_bind, false_or]
    by_cases w0 : W.length + 0 < buf.length
    case neg =>
      rw [wrx _ _ _ (by first | omega | (simp; omega)) (by first | omega | (simp; omega)),
        if_neg (by first | omega | (simp; omega))]
      refine Eq.trans (b := Res.ub) rfl ?_
      rw [if_pos (by first | exact Or.inr (by simp; omega) | (simp; omega))]
    rw [wrx _ _ _ (by first | omega | (simp; omega)) (by first | omega | (simp; omega)),
        if_pos (by first | omega | (simp; omega))]
    simp only [Res.ok_bind]
    by_cases n2 : Neg cs c
    · simp [n2]
    simp only [n2, if_false, Res.ok_bind, false_or]
    by_cases n3 : Neg cs d
    · simp [n3]
    simp only [n3, if_false, Res.ok_bind, false_or]
    by_cases w1 : W.length + 1 < buf.length
    case neg =>
      rw [wrx _ _ _ (by first | omega | (simp; omega)) (by first | omega | (simp; omega)),
        if_neg (by first | omega | (simp; omega))]
      refine Eq.trans (b := Res.ub) rfl ?_
      rw [if_pos (by first | exact Or.inr (by simp; omega) | (simp; omega))]
    rw [wrx _ _ _ (by first | omega | (simp; omega)) (by first | omega | (simp; omega)),
        if_pos (by first | omega | (simp; omega))]
    simp only [Res.ok_bind]
    by_cases n4 : Neg cs e
    · simp [n4]
    simp only [n4, if_false, Res.ok_bind, false_or]
    by_cases w2 : W.length + 2 < buf.length
    case neg =>
      rw [wrx _ _ _ (by first | omega | (simp; omega)) (by first | omega | (simp; omega)),
        if_neg (by first | omega | (simp; omega))]
      refine Eq.trans (b := Res.ub) rfl ?_
      rw [if_pos (by first | exact Or.inr (by simp; omega) | (simp; omega))]
    rw [wrx _ _ _ (by first | omega | (simp; omega)) (by first | omega | (simp; omega)),
        if_pos (by first | omega | (simp; omega))]
    simp only [Res.ok_bind]
    rw [if_neg (by simp; omega)]
    simp
  | [a, b, c, d, e, f, g], _ =>
    have g0 := G 0 a rfl
    have g1 := G 1 b rfl
    have g2 := G 2 c rfl
    have g3 := G 3 d rfl
    have g4 := G 4 e rfl
    have g5 := G 5 f rfl
    have g6 := G 6 g rfl
    simp only [Nat.add_zero] at g0
    have hdl : decLen [a, b, c, d, e, f, g].length = 4 := by simp [decLen]
    simp only [hdl, gt_iff_lt, show (0:Nat) < 4 by decide, show (1:Nat) < 4 by decide, show (2:Nat) < 4 by decide, show (3:Nat) < 4 by decide, Nat.lt_irrefl, if_true, if_false, g0, g1, g2, g3, g4, g5, g6]
    simp only [reads, ex4, exn, decPure, tailBytes, List.map_cons, List.map_nil]
    by_cases n0 : Neg cs a
    · simp [n0]
    simp only [n0, if_false, Res.ok_bind, false_or]
    by_cases n1 : Neg cs b
    · simp [n1]
    simp only [n1, if_false, Res.ok_bind, false_or]
    by_cases w0 : W.length + 0 < buf.length
    case neg =>
      rw [wrx _ _ _ (by first | omega | (simp; omega)) (by first | omega | (simp; omega)),
        if_neg (by first | omega | (simp; omega))]
      refine Eq.trans (b := Res.ub) rfl ?_
      rw [if_pos (by first | exact Or.inr (by simp; omega) | (simp; omega))]
    rw [wrx _ _ _ (by first | omega | (simp; omega)) (by first | omega | (simp; omega)),
        if_pos (by first | omega | (simp; omega))]
    simp only [Res.ok_bind]
    by_cases n2 : Neg cs c
    · simp [n2]
    simp only [n2, if_false, Res.ok_bind, false_or]
    by_cases n3 : Neg cs d
    · simp [n3]
    simp only [n3, if_false, Res.ok_bind, false_or]
    by_cases w1 : W.length + 1 < buf.length
    case neg =>
      rw [wrx _ _ _ (by first | omega | (simp; omega)) (by first | omega | (simp; omega)),
        if_neg (by first | omega | (simp; omega))]
      refine Eq.trans (b := Res.ub) rfl ?_
      rw [if_pos (by first | exact Or.inr (by simp; omega) | (simp; omega))]
    rw [wrx _ _ _ (by first | omega | (simp; omega)) (by first | omega | (simp; omega)),
        if_pos (by first | omega | (simp; omega))]
    simp only [Res.ok_bind]
    by_cases n4 : Neg cs e
    · simp [n4]
    simp only [n4, if_false, Res.ok_bind, false_or]
    by_cases w2 : W.length + 2 < buf.length
    case neg =>
      rw [wrx _ _ _ (by first | omega | (simp; omega)) (by first | omega | (simp; omega)),
        if_neg (by first | omega | (simp; omega))]
      refine Eq.trans (b := Res.ub) rfl ?_
      rw [if_pos (by first | exact Or.inr (by simp; omega) | (simp; omega))]
    rw [wrx _ _ _ (by first | omega | (simp; omega)) (by first | omega | (simp; omega)),
        if_pos (by first | omega | (simp; omega))]
    simp only [Res.ok_bind]
    by_cases n5 : Neg cs f
    · simp [n5]
    simp only [n5, if_false, Res.ok_bind, false_or]
    by_cases n6 : Neg cs g
    · simp [n6]
    simp only [n6, if_false, Res.ok_bind, false_or]
    by_cases w3 : W.length + 3 < buf.length
    case neg =>
      rw [wrx _ _ _ (by first | omega | (simp; omega)) (by first | omega | (simp; omega)),
        if_neg (by first | omega | (simp; omega))]
      refine Eq.trans (b := Res.ub) rfl ?_
      rw [if_pos (by first | exact Or.inr (by simp; omega) | (simp; omega))]
    rw [wrx _ _ _ (by first | omega | (simp; omega)) (by first | omega | (simp; omega)),
        if_pos (by first | omega | (simp; omega))]
    simp only [Res.ok_bind]
    rw [if_neg (by simp; omega)]
    simp

theorem dec_loop_total (cs raw : Bool) (str buf : List Byte) (N k j : Nat) (W L : List Byte)
    (hN : j + k = N) (hk : L.length / 8 = k) (hget : ∀ i, i < L.length → str[j*8+i]? = L[i]?)
    (hW : W.length = 5 * j) (hWb : W.length ≤ buf.length) :
    (do
      match ← forLoopB (decBody cs raw str) j k (over W buf) with
      | .stop r => pure r
      | .next buf => decTail cs raw str N (L.length % 8) buf) =
      if (∃ b ∈ reads raw L, Neg cs b) ∨ buf.length < (W ++ decPure raw L).length then .ub
      else .ok (over (W ++ decPure raw L) buf, 5 * j + (decPure raw L).length) := by
  induction k generalizing j W L with
  | zero =>
    have hj : j = N := by omega
    subst hj
    have hlt : L.length < 8 := by omega
    have := decTail_total cs raw str buf W L j hlt hget hW hWb
    rw [← Nat.mod_eq_of_lt hlt] at this
    simpa only [forLoopB, Res.pure_eq, Res.ok_bind] using this
  | succ k ih =>
    match L, hk, hget with
    | [], hk, _ => simp at hk
    | [_], hk, _ => simp at hk
    | [_, _], hk, _ => simp at hk
    | [_, _, _], hk, _ => simp at hk
    | [_, _, _, _], hk, _ => simp at hk
    | [_, _, _, _, _], hk, _ => simp at hk
    | [_, _, _, _, _, _], hk, _ => simp at hk
    | [_, _, _, _, _, _, _], hk, _ => simp at hk
    | a :: b :: c :: d :: e :: f :: g :: h :: R, hk, hget =>
      have hR : R.length / 8 = k := by simp only [List.length_cons] at hk; omega
      have hlen : (a :: b :: c :: d :: e :: f :: g :: h :: R).length % 8 = R.length % 8 := by
        simp only [List.length_cons]; omega
      have G : ∀ i x, (a :: b :: c :: d :: e :: f :: g :: h :: R)[i]? = some x →
          decAt cs raw str (j*8+i) = if Neg cs x then .ub else .ok (decVal raw x) := by
        intro i x hi
        refine decAt_get cs raw str _ x ?_
        rw [hget i (List.getElem?_eq_some_iff.mp hi).1, hi]
      have g0 := G 0 a rfl
      have g1 := G 1 b rfl
      have g2 := G 2 c rfl
      have g3 := G 3 d rfl
      have g4 := G 4 e rfl
      have g5 := G 5 f rfl
      have g6 := G 6 g rfl
      have g7 := G 7 h rfl
      simp only [Nat.add_zero] at g0
      have hgetR : ∀ i, i < R.length → str[(j+1)*8+i]? = R[i]? := by
        intro i hi
        have := hget (i+8) (by simp only [List.length_cons]; omega)
        rw [show j*8+(i+8) = (j+1)*8+i by omega] at this
        rw [this]
        rfl
      rw [hlen]
      simp only [forLoopB, decBody, g0, g1, g2, g3, g4, g5, g6, g7]
      rw [reads, decPure]
      have hmem : ∀ x ∈ [a, b, c, d, e, f, g, h], x ∈ reads raw (a :: b :: c :: d :: e :: f :: g :: h :: R) := by
        intro x hx
        rw [reads]
        split
        · exact hx
        · exact List.mem_append_left _ hx
      rw [reads] at hmem
      have hub : ∀ (C D : Prop) [Decidable (C ∨ D)] (X : Res (List Byte × Nat)), C → (if C ∨ D then Res.ub else X) = .ub :=
        fun C D _ X hC => if_pos (.inl hC)
      by_cases n0 : Neg cs a
      · rw [hub _ _ _ ⟨a, hmem a (by simp), n0⟩]
        simp only [n0, if_true]
        rfl
      simp only [n0, if_false, Res.ok_bind]
      by_cases n1 : Neg cs b
      · rw [hub _ _ _ ⟨b, hmem b (by simp), n1⟩]
        simp only [n1, if_true]
        rfl
      simp only [n1, if_false, Res.ok_bind]
      by_cases n2 : Neg cs c
      · rw [hub _ _ _ ⟨c, hmem c (by simp), n2⟩]
        simp only [n2, if_true]
        rfl
      simp only [n2, if_false, Res.ok_bind]
      by_cases n3 : Neg cs d
      · rw [hub _ _ _ ⟨d, hmem d (by simp), n3⟩]
        simp only [n3, if_true]
        rfl
      simp only [n3, if_false, Res.ok_bind]
      by_cases n4 : Neg cs e
      · rw [hub _ _ _ ⟨e, hmem e (by simp), n4⟩]
        simp only [n4, if_true]
        rfl
      simp only [n4, if_false, Res.ok_bind]
      by_cases n5 : Neg cs f
      · rw [hub _ _ _ ⟨f, hmem f (by simp), n5⟩]
        simp only [n5, if_true]
        rfl
      simp only [n5, if_false, Res.ok_bind]
      by_cases n6 : Neg cs g
      · rw [hub _ _ _ ⟨g, hmem g (by simp), n6⟩]
        simp only [n6, if_true]
        rfl
      simp only [n6, if_false, Res.ok_bind]
      by_cases n7 : Neg cs h
      · rw [hub _ _ _ ⟨h, hmem h (by simp), n7⟩]
        simp only [n7, if_true]
        rfl
      simp only [n7, if_false, Res.ok_bind]
      by_cases hbad : decVal raw a = 0xFF#8 ∨ decVal raw b = 0xFF#8 ∨ decVal raw c = 0xFF#8 ∨ decVal raw d = 0xFF#8 ∨
          decVal raw e = 0xFF#8 ∨ decVal raw f = 0xFF#8 ∨ decVal raw g = 0xFF#8 ∨ decVal raw h = 0xFF#8
      · rw [if_pos hbad, if_pos hbad, if_pos hbad, if_neg (by simp [n0, n1, n2, n3, n4, n5, n6, n7]; exact hWb)]
        simp
      · rw [if_neg hbad, if_neg hbad, if_neg hbad]
        by_cases hfit : W.length + 5 ≤ buf.length
        · rw [wrs_over _ _ _ _ hW.symm (by simp; omega)]
          simp only [Res.ok_bind, Res.pure_eq]
          have := ih (j+1) (W ++ group5 (decVal raw a) (decVal raw b) (decVal raw c) (decVal raw d) (decVal raw e) (decVal raw f)
            (decVal raw g) (decVal raw h)) R (by omega) hR hgetR (by simp [group5]; omega) (by simp [group5]; omega)
          simp only [Res.pure_eq] at this
          unfold group5 at this ⊢
          rw [this, List.append_assoc]
          have he : (∃ x ∈ [a, b, c, d, e, f, g, h] ++ reads raw R, Neg cs x) ↔ ∃ x ∈ reads raw R, Neg cs x := by
            simp [n0, n1, n2, n3, n4, n5, n6, n7]
          simp only [he]
          refine if_congr Iff.rfl rfl ?_
          simp; omega
        · rw [wrs_over_ub _ _ _ _ hW.symm hWb (by simp; omega), if_pos (.inr (by simp [group5]; omega))]
          rfl

/-- The decoder on every object: the characters examined, the bytes they stand for, and whether these fit. -/
theorem fromBase32Impl_total (cs raw : Bool) (str buf : List Byte) (n m : Nat) (hm : strlen str n = .ok m) (hs : m ≤ str.length) :
    fromBase32Impl cs str n buf raw =
      if (∃ b ∈ reads raw (str.take m), Neg cs b) ∨ buf.length < (decPure raw (str.take m)).length then .ub
      else .ok (over (decPure raw (str.take m)) buf, (decPure raw (str.take m)).length) := by
  have hl : (str.take m).length = m := by rw [List.length_take]; omega
  have := dec_loop_total cs raw str buf (m/8) (m/8) 0 [] (str.take m) (by omega) (by rw [hl]) (by
    intro i hi
    rw [hl] at hi
    rw [Nat.zero_mul, Nat.zero_add, List.getElem?_take_of_lt hi]) rfl (Nat.zero_le _)
  simp only [over_nil, Nat.mul_zero, List.nil_append, Nat.zero_add, hl] at this
  unfold fromBase32Impl
  rw [hm]
  simp only [Res.ok_bind]
  exact this
end Base32
