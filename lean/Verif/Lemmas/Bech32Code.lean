import Verif.Lemmas.Bech32Distance
/-! Any four columns are independent, so a word of at most 89 symbols with at most four of them not zero is no codeword. -/
namespace Bech32Spec

theorem good_one (L : List (List K)) (h : good L = true) (i : Nat) (hi : i < L.length) : fnz L[i] ≠ 0#5 := by
  induction L generalizing i with
  | nil => simp at hi
  | cons x L ih =>
    simp only [good, Bool.and_eq_true] at h
    cases i with
    | zero => simpa using h.1.1.1
    | succ i => exact ih h.2 i (by simpa using hi)

theorem good_two (L : List (List K)) (h : good L = true) (i j : Nat) (hij : i < j) (hj : j < L.length) :
    fnz (proj L[i] L[j]) ≠ 0#5 := by
  induction L generalizing i j with
  | nil => simp at hj
  | cons x L ih =>
    simp only [good, Bool.and_eq_true] at h
    cases j with
    | zero => omega
    | succ j =>
      have hj' : j < L.length := by simpa using hj
      cases i with
      | zero =>
        have := List.all_eq_true.1 h.1.1.2 (proj x L[j]) (List.mem_map_of_mem (List.getElem_mem _))
        simpa using this
      | succ i => exact ih h.2 i j (by omega) hj'

theorem good_three (L : List (List K)) (h : good L = true) (i j k : Nat) (hij : i < j) (hjk : j < k) (hk : k < L.length) :
    norm (proj L[i] L[j]) ≠ norm (proj L[i] L[k]) := by
  induction L generalizing i j k with
  | nil => simp at hk
  | cons x L ih =>
    simp only [good, Bool.and_eq_true] at h
    obtain ⟨k, rfl⟩ : ∃ k', k = k' + 1 := ⟨k - 1, by omega⟩
    obtain ⟨j, rfl⟩ : ∃ j', j = j' + 1 := ⟨j - 1, by omega⟩
    have hk' : k < L.length := by simpa using hk
    cases i with
    | zero =>
      have := nodupB_spec _ h.1.2 j k (by omega) (by simpa using hk')
      simp only [List.getElem_map] at this
      simp only [List.getElem_cons_zero, List.getElem_cons_succ]
      exact fun he => this (congrArg num he)
    | succ i => exact ih h.2 i j k (by omega) (by omega) hk'

theorem kmul_eq_zero {a b : K} (ha : a ≠ 0#5) (h : kmul a b = 0#5) : b = 0#5 := by
  by_cases hb : b = 0#5
  · exact hb
  · exact absurd h (kmul_ne a b ha hb)

theorem xor_eq_zero {a b : K} (h : a ^^^ b = 0#5) : a = b := by
  have := congrArg (· ^^^ b) h
  simpa [BitVec.xor_assoc] using this

/-- No combination of one, two or three vectors of a good list is zero. -/
theorem no_comb (L : List (List K)) (h : good L = true) (n : Nat) (hn : ∀ x ∈ L, x.length = n) (i j k : Nat)
    (hij : i < j) (hjk : j < k) (hk : k < L.length) (a b c : K) (hb : b ≠ 0#5) (hc : c ≠ 0#5) :
    ¬ Comb a b c L[i] L[j] L[k] := by
  intro hcomb
  have li := hn L[i] (List.getElem_mem _)
  have lj := hn L[j] (List.getElem_mem _)
  have lk := hn L[k] (List.getElem_mem _)
  have hp := comb_proj (good_one L h i (by omega)) (by omega) (by omega) hcomb
  refine good_three L h i j k hij hjk hk (norm_eq _ _ b c hb hc ?_ (good_two L h i k (by omega) hk) ?_)
  · simp [proj, li, lj, lk]
  · intro m; exact xor_eq_zero (hp m)

theorem no_comb2 (L : List (List K)) (h : good L = true) (n : Nat) (hn : ∀ x ∈ L, x.length = n) (i j : Nat)
    (hij : i < j) (hj : j < L.length) (a b : K) (hb : b ≠ 0#5) :
    ¬ ∀ m, kmul a (L[i].getD m 0#5) ^^^ kmul b (L[j].getD m 0#5) = 0#5 := by
  intro hcomb
  have li := hn L[i] (List.getElem_mem _)
  have lj := hn L[j] (List.getElem_mem _)
  have hp := comb_proj (a := a) (b := b) (c := 0#5) (good_one L h i (by omega)) (y := L[j]) (z := L[j]) (by omega) (by omega)
    (fun m => by rw [zero_kmul, BitVec.xor_zero]; exact hcomb m)
  obtain ⟨m, hm⟩ := fnz_zero _ (good_two L h i j hij hj)
  have := hp m
  rw [zero_kmul, BitVec.xor_zero] at this
  exact hm (kmul_eq_zero hb this)

theorem no_comb1 (L : List (List K)) (h : good L = true) (i : Nat) (hi : i < L.length) (a : K) (ha : a ≠ 0#5) :
    ¬ ∀ m, kmul a (L[i].getD m 0#5) = 0#5 := by
  intro hcomb
  obtain ⟨m, hm⟩ := fnz_zero _ (good_one L h i hi)
  exact hm (kmul_eq_zero ha (hcomb m))

/-- The upper five symbols. -/
def upper (p : V) : List K := [sym 1 p, sym 2 p, sym 3 p, sym 4 p, sym 5 p]

/-- The upper symbols of `p`, `lin p`, `lin (lin p)`, … -/
def run : Nat → V → List (List K)
  | 0, _ => []
  | n + 1, p => upper p :: run n (lin p)

theorem run_length (n : Nat) (p : V) : (run n p).length = n := by
  induction n generalizing p with
  | zero => rfl
  | succ n ih => rw [run, List.length_cons, ih]

theorem run_get (n : Nat) (p : V) (i : Nat) (h : i < (run n p).length) : (run n p)[i] = upper (lin^[i] p) := by
  induction n generalizing p i with
  | zero => simp [run] at h
  | succ n ih =>
    cases i with
    | zero => rfl
    | succ i =>
      simp only [run, List.getElem_cons_succ]
      rw [ih, Function.iterate_succ_apply]

theorem run_mem (n : Nat) (p : V) (x : List K) (h : x ∈ run n p) : x.length = 5 := by
  obtain ⟨i, hi, rfl⟩ := List.getElem_of_mem h
  rw [run_get]; rfl

theorem cols_good : good (run 88 (lin 1#30)) = true := by decide +kernel

theorem cols_get (i : Nat) (h : i < 88) : (run 88 (lin 1#30))[i]'(by rw [run_length]; exact h) = upper (col (i + 1)) := by
  rw [run_get, col, Function.iterate_succ_apply]

theorem upper_getD (p q : V) (k : K) (h : Scal k p q) (m : Nat) :
    (upper p).getD m 0#5 = kmul k ((upper q).getD m 0#5) := by
  rcases m with _ | _ | _ | _ | _ | m
  · exact h 1 (by omega)
  · exact h 2 (by omega)
  · exact h 3 (by omega)
  · exact h 4 (by omega)
  · exact h 5 (by omega)
  · exact (kmul_zero k).symm

theorem upper_xor (p q : V) (m : Nat) : (upper (p ^^^ q)).getD m 0#5 = (upper p).getD m 0#5 ^^^ (upper q).getD m 0#5 := by
  rcases m with _ | _ | _ | _ | _ | m
  · exact sym_xor 1 p q
  · exact sym_xor 2 p q
  · exact sym_xor 3 p q
  · exact sym_xor 4 p q
  · exact sym_xor 5 p q
  · exact (BitVec.xor_self (x := 0#5)).symm

theorem upper_small (e : BitVec 8) (h : e.toNat < 32) (m : Nat) : (upper (e.setWidth 30)).getD m 0#5 = 0#5 := by
  have : ∀ e : BitVec 8, e.toNat < 32 → upper (e.setWidth 30) = [0#5, 0#5, 0#5, 0#5, 0#5] := by decide +kernel
  rw [this e h]
  rcases m with _ | _ | _ | _ | _ | m <;> rfl

theorem small_ne (e : BitVec 8) (h : e.toNat < 32) (hne : e ≠ 0#8) : e.setWidth 5 ≠ 0#5 := by
  have : ∀ e : BitVec 8, e.toNat < 32 → e ≠ 0#8 → e.setWidth 5 ≠ 0#5 := by decide +kernel
  exact this e h hne

theorem iter_inj (i : Nat) {a b : V} (h : lin^[i] a = lin^[i] b) : a = b := by
  induction i generalizing a b with
  | zero => exact h
  | succ i ih => exact lin_inj (ih (by rwa [Function.iterate_succ_apply, Function.iterate_succ_apply] at h))

/-- Number of symbols that are not zero. -/
abbrev weight (l : List (BitVec 8)) : Nat := l.countP fun e => e != 0#8

theorem weight_split (k : Nat) (a : BitVec 8) (R : List (BitVec 8)) (ha : a ≠ 0#8) :
    weight (List.replicate k 0#8 ++ a :: R) = weight R + 1 := by
  simp [weight, List.countP_append, List.countP_replicate, ha]

/-- One more term. -/
theorem peel (i : Nat) (a : BitVec 8) (R : List (BitVec 8)) (ha : a.toNat < 32) (m : Nat) :
    (upper (feedW i (a :: R))).getD m 0#5 =
      kmul (a.setWidth 5) ((upper (col i)).getD m 0#5) ^^^ (upper (feedW (i + 1) R)).getD m 0#5 := by
  rw [feedW_cons, upper_xor, upper_getD _ _ _ (scal_iter a ha i)]

theorem upper_zero (m : Nat) : (upper 0#30).getD m 0#5 = 0#5 := upper_small 0#8 (by decide) m

/-- Up to three symbols cannot cancel in the upper part of the register. -/
theorem three (R : List (BitVec 8)) (hlt : ∀ e ∈ R, e.toNat < 32) (hlen : R.length ≤ 88) (hw : weight R ≤ 3)
    (h : ∀ m, (upper (feedW 1 R)).getD m 0#5 = 0#5) : ∀ e ∈ R, e = 0#8 := by
  rcases split_first R with h0 | ⟨k1, a, R1, rfl, ha⟩
  · exact h0
  exfalso
  rw [weight_split _ _ _ ha] at hw
  rw [feedW_zeros] at h
  have la : a.toNat < 32 := hlt a (by simp)
  rcases split_first R1 with h0 | ⟨k2, b, R2, rfl, hb⟩
  · refine no_comb1 _ cols_good k1 ?_ (a.setWidth 5) (small_ne a la ha) ?_
    · rw [run_length]; simp at hlen; omega
    · intro m
      rw [cols_get k1 (by simp at hlen; omega)]
      have := h m
      rw [peel _ _ _ la, feedW_all_zero _ _ h0, upper_zero, BitVec.xor_zero, Nat.add_comm 1] at this
      exact this
  rw [weight_split _ _ _ hb] at hw
  have lb : b.toNat < 32 := hlt b (by simp)
  rcases split_first R2 with h0 | ⟨k3, c, R3, rfl, hc⟩
  · refine no_comb2 _ cols_good 5 (run_mem _ _) k1 (k1 + 1 + k2) (by omega) ?_ (a.setWidth 5) (b.setWidth 5)
      (small_ne b lb hb) ?_
    · rw [run_length]; simp at hlen; omega
    · intro m
      rw [cols_get k1 (by simp at hlen; omega), cols_get (k1 + 1 + k2) (by simp at hlen; omega)]
      have := h m
      rw [peel _ _ _ la, feedW_zeros, peel _ _ _ lb, feedW_all_zero _ _ h0, upper_zero, BitVec.xor_zero,
        show 1 + k1 + 1 + k2 = k1 + 1 + k2 + 1 by omega, Nat.add_comm 1] at this
      exact this
  rw [weight_split _ _ _ hc] at hw
  have lc : c.toNat < 32 := hlt c (by simp)
  rcases split_first R3 with h0 | ⟨k4, d, R4, rfl, hd⟩
  · refine no_comb _ cols_good 5 (run_mem _ _) k1 (k1 + 1 + k2) (k1 + 1 + k2 + 1 + k3) (by omega) (by omega) ?_
      (a.setWidth 5) (b.setWidth 5) (c.setWidth 5) (small_ne b lb hb) (small_ne c lc hc) ?_
    · rw [run_length]; simp at hlen; omega
    · intro m
      rw [cols_get k1 (by simp at hlen; omega), cols_get (k1 + 1 + k2) (by simp at hlen; omega),
        cols_get (k1 + 1 + k2 + 1 + k3) (by simp at hlen; omega)]
      have := h m
      rw [peel _ _ _ la, feedW_zeros, peel _ _ _ lb, feedW_zeros, peel _ _ _ lc, feedW_all_zero _ _ h0, upper_zero,
        BitVec.xor_zero, show 1 + k1 + 1 + k2 + 1 + k3 = k1 + 1 + k2 + 1 + k3 + 1 by omega,
        show 1 + k1 + 1 + k2 = k1 + 1 + k2 + 1 by omega, Nat.add_comm 1, ← BitVec.xor_assoc] at this
      exact this
  · rw [weight_split _ _ _ hd] at hw
    omega

/-- A word of at most 89 symbols, at most four of them not zero, that leaves the register at zero is all zero. -/
theorem four (E : List (BitVec 8)) (hlt : ∀ e ∈ E, e.toNat < 32) (hlen : E.length ≤ 89) (hw : weight E ≤ 4)
    (h : E.foldl step 0#30 = 0#30) : ∀ e ∈ E, e = 0#8 := by
  obtain ⟨R, rfl⟩ : ∃ R, E = R.reverse := ⟨E.reverse, by simp⟩
  rw [feed_eq] at h
  have hw' : weight R ≤ 4 := by simpa [weight, List.countP_reverse] using hw
  have hlt' : ∀ e ∈ R, e.toNat < 32 := fun e he => hlt e (by simpa using he)
  have hlen' : R.length ≤ 89 := by simpa using hlen
  rcases split_first R with h0 | ⟨k, a, R', rfl, ha⟩
  · intro e he; exact h0 e (by simpa using he)
  exfalso
  rw [weight_split _ _ _ ha] at hw'
  have h1 : feedW k (a :: R') = 0#30 := by
    have := feedW_zeros 0 k (a :: R')
    rw [Nat.zero_add] at this
    rw [← this]; exact h
  have h2 : feed (a :: R') = 0#30 := iter_inj k (h1.trans (iter_zero k).symm)
  have h3 : feedW 0 (a :: R') = 0#30 := h2
  have la : a.toNat < 32 := hlt' a (by simp)
  have hz := three R' (fun e he => hlt' e (by simp [he])) (by simp at hlen'; omega) (by omega) (by
    intro m
    have := congrArg (fun p => (upper p).getD m 0#5) h3
    rw [feedW_cons, upper_xor, upper_zero] at this
    have e0 : (upper (lin^[0] (a.setWidth 30))).getD m 0#5 = 0#5 := upper_small a la m
    rw [e0, BitVec.zero_xor] at this
    exact this)
  rw [feedW_cons, feedW_all_zero _ _ hz, BitVec.xor_zero] at h3
  have h4 : a.setWidth 30 = 0#30 := h3
  apply ha
  apply BitVec.eq_of_toNat_eq
  have := congrArg BitVec.toNat h4
  rw [BitVec.toNat_setWidth, Nat.mod_eq_of_lt (by omega)] at this
  exact this

theorem foldl_xor (x y : List (BitVec 8)) (h : x.length = y.length) (c d : V) :
    x.foldl step c ^^^ y.foldl step d = (List.zipWith (· ^^^ ·) x y).foldl step (c ^^^ d) := by
  induction x generalizing y c d with
  | nil => cases y with
    | nil => rfl
    | cons _ _ => simp at h
  | cons a x ih => cases y with
    | nil => simp at h
    | cons b y =>
      simp only [List.foldl_cons, List.zipWith_cons_cons]
      rw [ih y (by simpa using h)]
      congr 1
      rw [step_eq, step_eq, step_eq, lin_xor, BitVec.setWidth_xor]
      ac_rfl

theorem xor_zero8 {a b : BitVec 8} (h : a ^^^ b = 0#8) : a = b := by
  have := congrArg (· ^^^ b) h
  simpa [BitVec.xor_assoc] using this

theorem zip_zero (x y : List (BitVec 8)) (h : x.length = y.length)
    (hz : ∀ e ∈ List.zipWith (· ^^^ ·) x y, e = 0#8) : x = y := by
  induction x generalizing y with
  | nil => cases y with
    | nil => rfl
    | cons _ _ => simp at h
  | cons a x ih => cases y with
    | nil => simp at h
    | cons b y =>
      simp only [List.zipWith_cons_cons, List.mem_cons, forall_eq_or_imp] at hz
      rw [xor_zero8 hz.1, ih y (by simpa using h) hz.2]

theorem weight_zip (x y : List (BitVec 8)) : weight (List.zipWith (· ^^^ ·) x y) = differences x y := by
  induction x generalizing y with
  | nil => cases y <;> rfl
  | cons a x ih => cases y with
    | nil => rfl
    | cons b y =>
      rw [differences] at *
      simp only [weight, List.zipWith_cons_cons, List.zip_cons_cons, List.countP_cons] at *
      rw [ih]
      congr 1
      by_cases hab : a = b
      · subst hab; simp
      · have : a ^^^ b ≠ 0#8 := fun h => hab (xor_zero8 h)
        simp [hab, this]

theorem lt_xor : ∀ a b : BitVec 8, a.toNat < 32 → b.toNat < 32 → (a ^^^ b).toNat < 32 := by decide +kernel

/-- Two words with the same remainder are equal or differ in at least five places. -/
theorem distance (c : V) (x y : List (BitVec 8)) (hl : x.length = y.length) (hlen : x.length ≤ 89)
    (hx : ∀ v ∈ x, v.toNat < 32) (hy : ∀ v ∈ y, v.toNat < 32) (hd : differences x y ≤ 4)
    (h : x.foldl step c = y.foldl step c) : x = y := by
  refine zip_zero x y hl (four _ ?_ ?_ ?_ ?_)
  · intro e he
    obtain ⟨i, hi, rfl⟩ := List.getElem_of_mem he
    rw [List.getElem_zipWith]
    exact lt_xor _ _ (hx _ (List.getElem_mem _)) (hy _ (List.getElem_mem _))
  · simp; omega
  · rw [weight_zip]; exact hd
  · have := foldl_xor x y hl c c
    rw [h, BitVec.xor_self, BitVec.xor_self] at this
    exact this.symm

end Bech32Spec
