import Verif.Lemmas.LeakageRead
import Verif.Lemmas.LeakageTextWork

/-! How much writing and reading base 58 costs at least. -/
namespace Leakage
open WorkSpec Positional

theorem holds_lt {B size length v : Nat} {buf : List Byte} (h : Base58.Holds B buf size length v) : v < B ^ length := by
  have key : ∀ (zs xs : List Byte), (∀ x ∈ zs, x = 0#8) → Base58.num B (zs ++ xs) = Base58.num B xs := by
    intro zs
    induction zs with
    | nil => intro xs _; rfl
    | cons z zs ih =>
      intro xs hz
      have h0 : z = 0#8 := hz z (by simp)
      have := ih xs (fun x hx => hz x (by simp [hx]))
      rw [← this]
      subst h0
      simp [Base58.num, value]
  have e : buf = buf.take (size - length) ++ buf.drop (size - length) := (List.take_append_drop _ _).symm
  have hl := h.len
  have hle := h.le
  have := Base58.num_lt B (buf.drop (size - length)) (fun x hx => h.lt x (List.mem_of_mem_drop hx))
  rw [← key _ _ h.zero, ← e, h.val, List.length_drop, show buf.length - (size - length) = length by omega] at this
  exact this

/-- Each round of the carry loop is at least two branches and two accesses. -/
theorem carryLoop_least (B m length : Nat) (obj : String) : ∀ it i carry b r t,
    carryLoop B m length obj it i carry b = .ok r t → i ≤ r.2.1 ∧ 4 * (r.2.1 - i) ≤ work t := by
  intro it
  induction it with
  | zero =>
    intro i carry b r t h
    unfold carryLoop at h
    obtain ⟨_, t1, t2, -, h2, rfl⟩ := bind_inv h
    cases h2
    exact ⟨Nat.le_refl _, by simp⟩
  | succ it ih =>
    intro i carry b r t h
    unfold carryLoop at h
    obtain ⟨_, t1, t2, h1, h2, rfl⟩ := bind_inv h
    have e1 : 1 ≤ work t1 := by
      rw [seen_ok] at h1
      cases h1
      simp
    split at h2
    · obtain ⟨d, t3, t4, h3, h4, rfl⟩ := bind_inv h2
      simp only at h4
      split at h4
      · cases h4
      obtain ⟨b', t5, t6, h5, h6, rfl⟩ := bind_inv h4
      have e3 : 2 ≤ work t3 := by
        cases hr : rd b it with
        | ok x => rw [hr, seen_ok] at h3; cases h3; simp
        | ub => rw [hr] at h3; cases h3
        | abort => rw [hr] at h3; cases h3
      have e5 : 1 ≤ work t5 := by
        cases hr : wr b it (BitVec.ofNat 8 ((carry + m * d.toNat) % B)) with
        | ok x => rw [hr, seen_ok] at h5; cases h5; simp
        | ub => rw [hr] at h5; cases h5
        | abort => rw [hr] at h5; cases h5
      obtain ⟨i1, i2⟩ := ih _ _ _ _ _ h6
      simp only [work_append]
      omega
    · cases h2
      exact ⟨Nat.le_refl _, by simp⟩

/-! ### Writing -/

theorem len_of_pow {a b l m : Nat} (h1 : a ^ m ≤ b) (h2 : b < 58 ^ l) (ha : 58 ≤ a) : m < l := by
  have h3 : 58 ^ m < 58 ^ l := Nat.lt_of_le_of_lt (Nat.le_trans (Nat.pow_le_pow_left ha m) h1) h2
  exact (Nat.pow_lt_pow_iff_right (by omega)).1 h3

/-- `k` more bytes after `m` of which the first is not zero. -/
theorem encLoop_least (buf : Ptr) (size : Nat) : ∀ k p m v st r t, encLoop buf size p k st = .ok r t →
    Base58.Holds 58 st.1 size st.2 v → v < 256 ^ m → 256 ^ (m + k) ≤ 58 ^ size →
    (m = 0 → ∀ b, buf.mem[p]? = some b → b ≠ 0#8) → (0 < m → 256 ^ (m - 1) ≤ v) →
    2 * (k * (2 * m + k + 1)) ≤ work t := by
  intro k
  induction k with
  | zero => intro p m v st r t _ _ _ _ _ _; simp
  | succ k ih =>
    intro p m v st r t h hst hv hfit hf hm
    unfold encLoop at h
    obtain ⟨_, t1, t2, h1, h2, rfl⟩ := bind_inv h
    obtain ⟨b, t3, t4, h3, h4, rfl⟩ := bind_inv h2
    obtain ⟨x, t5, t6, h5, h6, rfl⟩ := bind_inv h4
    obtain ⟨b58, i, carry⟩ := x
    obtain ⟨_, t7, t8, h7, h8, rfl⟩ := bind_inv h6
    have hb : buf.mem[p]? = some b := by
      cases hr : rd buf.mem p with
      | ok y => rw [hr, seen_ok] at h3; cases h3; exact (rd_inj_len hr).2
      | ub => rw [hr] at h3; cases h3
      | abort => rw [hr] at h3; cases h3
    have hb2 := b.isLt
    have hpow : 256 ^ (m + 1) ≤ 256 ^ (m + (k + 1)) := Nat.pow_le_pow_right (by omega) (by omega)
    have hlt : 256 * v + b.toNat < 256 ^ (m + 1) := by rw [Nat.pow_succ]; omega
    obtain ⟨b', i', e, hh⟩ := Base58.carryLoop_holds 58 256 size st.2 v b.toNat st.1 (by omega) (by omega) (by decide) hst (by omega) (by omega)
    obtain ⟨t', e', -⟩ := carryLoop_costs 58 256 st.2 "b58" size 0 b.toNat st.1 _ e
    obtain ⟨e1, e2⟩ := ok_inj (h5.symm.trans e')
    cases e1
    obtain ⟨-, c1⟩ := carryLoop_least _ _ _ _ _ _ _ _ _ _ h5
    have hge : 256 ^ m ≤ 256 * v + b.toNat := by
      rcases Nat.eq_zero_or_pos m with h0 | h0
      · subst h0
        have := hf rfl b hb
        have : b.toNat ≠ 0 := fun h => this (BitVec.eq_of_toNat_eq h)
        simp; omega
      · have := hm h0
        have e : 256 ^ m = 256 * 256 ^ (m - 1) := by rw [← Nat.pow_succ']; congr 1; omega
        omega
    have hi := len_of_pow hge (holds_lt hh) (by omega)
    have := ih (p + 1) (m + 1) (256 * v + b.toNat) _ r t8 h8 hh hlt (by rw [show m + 1 + k = m + (k + 1) by omega]; exact hfit)
      (by omega) (fun _ => hge)
    simp only [work_append]
    simp only [Nat.sub_zero] at c1
    have e3 : 2 * ((k + 1) * (2 * m + (k + 1) + 1)) = 2 * (k * (2 * (m + 1) + k + 1)) + 4 * (m + 1) := by ring
    omega

/-- Writing base 58: at least `2 * m * (m + 1)`, where `m` bytes follow the zeroes at the beginning. -/
theorem toBase58_least (obj : String) (base z : Nat) (d str : List Byte) (hd : d.head? ≠ some 0#8) (r : List Byte × Nat) (t : List Ev)
    (h : toBase58 ⟨obj, base, List.replicate z 0#8 ++ d⟩ (z + d.length) str = .ok r t) :
    2 * (d.length * (d.length + 1)) ≤ work t := by
  generalize hbs : List.replicate z 0#8 ++ d = bs at h
  have hlen : bs.length = z + d.length := by rw [← hbs]; simp
  unfold toBase58 at h
  obtain ⟨z', t1, t2, h1, h2, rfl⟩ := bind_inv h
  have hz := Base58.skipZeroes_eq bs (z + d.length) 0 (by omega)
  obtain ⟨t', e', -⟩ := skipZeroes_costs ⟨obj, base, bs⟩ (z + d.length) 0 _ hz
  obtain ⟨e1, -⟩ := ok_inj (h1.symm.trans e')
  rw [List.drop_zero, List.take_of_length_le (by omega), Nat.zero_add, ← hbs] at e1
  have e2 : z' = z := by
    rw [e1]
    clear hbs hz e' h1 e1 hlen h2 h
    induction z with
    | zero =>
      cases d with
      | nil => rfl
      | cons a d =>
        rw [List.replicate_zero, List.nil_append, List.takeWhile_cons_of_neg]
        · rfl
        · simp only [decide_eq_true_eq]
          intro e
          exact hd (by rw [e]; rfl)
    | succ z ih => rw [List.replicate_succ, List.cons_append, List.takeWhile_cons_of_pos (by simp), List.length_cons, ih]
  subst e2
  rw [Nat.add_sub_cancel_left] at h2
  simp only at h2
  split at h2
  · cases h2
  obtain ⟨_, t3, t4, -, h4, rfl⟩ := bind_inv h2
  obtain ⟨b58, t5, t6, h5, h6, rfl⟩ := bind_inv h4
  rw [seen_ok] at h5
  cases h5
  obtain ⟨st, t7, t8, h7, -, rfl⟩ := bind_inv h6
  have := encLoop_least ⟨obj, base, bs⟩ _ d.length z' 0 0 _ st t7 h7 (Base58.holds_init 58 _ (by omega)) (by simp)
    (by rw [Nat.zero_add]; exact Base58.pow_bound_enc _)
    (fun _ b hb => by
      simp only at hb
      rw [← hbs, List.getElem?_append_right (by simp), List.length_replicate, Nat.sub_self, ← List.head?_eq_getElem?] at hb
      intro e
      exact hd (by rw [hb, e]))
    (by omega)
  simp only [work_append]
  simp only [Nat.mul_zero, Nat.zero_add] at this
  omega

/-! ### Reading -/

theorem len_of_pow256 {b l m : Nat} (h1 : 58 ^ m ≤ b) (h2 : b < 256 ^ l) : 2 * m < 3 * l := by
  have h3 : 58 ^ m < 256 ^ l := Nat.lt_of_le_of_lt h1 h2
  have h4 : (58 ^ m) ^ 3 < (256 ^ l) ^ 3 := Nat.pow_lt_pow_left h3 (by omega)
  have h5 : (256 ^ 2) ^ m ≤ (58 ^ 3) ^ m := Nat.pow_le_pow_left (by decide) m
  rw [← Nat.pow_mul, ← Nat.pow_mul] at h4
  rw [← Nat.pow_mul, ← Nat.pow_mul, Nat.mul_comm 3 m] at h5
  have h6 := Nat.lt_of_le_of_lt h5 h4
  have := (Nat.pow_lt_pow_iff_right (a := 256) (by omega)).1 h6
  omega

/-- More digits after `m` of which the first is not zero. -/
theorem digitLoop_least (cs : Bool) (size : Nat) (obj : String) (post : List Byte) : ∀ (s : List Byte) p m v b len r t,
    digitLoop cs size obj p (s ++ 0#8 :: post) b len = .ok r t → (∀ c ∈ s, (Base58Spec.value? c).isSome = true) →
    Base58.Holds 256 b size len v → v < 58 ^ m → 58 ^ (m + s.length) ≤ 256 ^ size →
    (m = 0 → s.head? ≠ some 49#8) → (0 < m → 58 ^ (m - 1) ≤ v) →
    4 * (s.length * (2 * m + s.length)) ≤ 3 * work t := by
  intro s
  induction s with
  | nil => intro p m v b len r t _ _ _ _ _ _ _; simp
  | cons c s ih =>
    intro p m v b len r t h hs hst hv hfit hf hm
    rw [List.cons_append] at h
    unfold digitLoop at h
    obtain ⟨_, t1, t2, h1, h2, rfl⟩ := bind_inv h
    obtain ⟨d, hd⟩ := Option.isSome_iff_exists.1 (hs c (by simp))
    have hc : ∀ c : Byte, (Base58Spec.value? c).isSome = true → c ≠ 0#8 ∧ c.toNat < 128 ∧ Base58Spec.isSpace c = false ∧
        (c ≠ 49#8 → Base58Spec.value? c ≠ some 0) := by decide +kernel
    obtain ⟨c0, c1, c2, c3⟩ := hc c (hs c (by simp))
    rw [if_neg c0, Base58.isspace_eq cs c (fun _ => c1), c2, seen_ok] at h2
    obtain ⟨_, t3, t4, h3, h4, rfl⟩ := bind_inv h2
    cases h3
    obtain ⟨_, t5, t6, h5, h6, rfl⟩ := bind_inv h4
    rw [if_neg (by simp)] at h6
    rw [Base58.rd_decode, hd, seen_ok] at h6
    obtain ⟨_, t7, t8, h7, h8, rfl⟩ := bind_inv h6
    cases h7
    obtain ⟨_, t9, t10, h9, h10, rfl⟩ := bind_inv h8
    simp only at h10
    rw [if_neg (by omega)] at h10
    obtain ⟨x, t11, t12, h11, h12, rfl⟩ := bind_inv h10
    obtain ⟨b256, i, carry⟩ := x
    obtain ⟨_, t13, t14, h13, h14, rfl⟩ := bind_inv h12
    have hd58 := Base58.value?_lt c d hd
    have hpow : 58 ^ (m + 1) ≤ 58 ^ (m + (s.length + 1)) := Nat.pow_le_pow_right (by omega) (by omega)
    have hlt : 58 * v + d < 58 ^ (m + 1) := by rw [Nat.pow_succ]; omega
    simp only [List.length_cons] at hfit
    obtain ⟨b', i', e, hh⟩ := Base58.carryLoop_holds 256 58 size len v d b (by omega) (by omega) (by decide) hst (by omega) (by omega)
    obtain ⟨t', e', -⟩ := carryLoop_costs 256 58 len "b256" size 0 d b _ e
    rw [Int.toNat_natCast] at h11
    obtain ⟨e1, e2⟩ := ok_inj (h11.symm.trans e')
    cases e1
    obtain ⟨-, c4⟩ := carryLoop_least _ _ _ _ _ _ _ _ _ _ h11
    have hge : 58 ^ m ≤ 58 * v + d := by
      rcases Nat.eq_zero_or_pos m with h0 | h0
      · subst h0
        have hne : c ≠ 49#8 := fun e => hf rfl (by rw [e]; rfl)
        have : d ≠ 0 := fun h => c3 hne (by rw [hd, h])
        simp; omega
      · have := hm h0
        have e : 58 ^ m = 58 * 58 ^ (m - 1) := by rw [← Nat.pow_succ']; congr 1; omega
        omega
    have hi := len_of_pow256 hge (holds_lt hh)
    have := ih (p + 1) (m + 1) (58 * v + d) _ _ r t14 h14 (fun c hc => hs c (by simp [hc])) hh hlt
      (by rw [show m + 1 + s.length = m + (s.length + 1) by omega]; exact hfit) (by omega) (fun _ => hge)
    simp only [work_append, List.length_cons]
    simp only [Nat.sub_zero] at c4
    have e3 : 4 * ((s.length + 1) * (2 * m + (s.length + 1))) = 4 * (s.length * (2 * (m + 1) + s.length)) + 4 * (2 * m + 1) := by ring
    omega

/-- Reading base 58: at least `4 * m ^ 2 / 3`, where `m` digits follow the ones at the beginning. -/
theorem fromBase58_least (cs : Bool) (obj dst : String) (z : Nat) (d post buf : List Byte) (r : List Byte × Nat) (t : List Ev)
    (hs : ∀ c ∈ d, (Base58Spec.value? c).isSome = true) (hd : d.head? ≠ some 49#8)
    (h : fromBase58 cs ⟨obj, 0, List.replicate z 49#8 ++ d ++ 0#8 :: post⟩ (z + d.length) dst buf = .ok r t) :
    4 * d.length ^ 2 ≤ 3 * work t := by
  have hc : ∀ c : Byte, (Base58Spec.value? c).isSome = true → c ≠ 0#8 ∧ c.toNat < 128 ∧ Base58Spec.isSpace c = false := by decide +kernel
  generalize hS : List.replicate z 49#8 ++ d = s at h
  have hs2 : ∀ c ∈ s, (Base58Spec.value? c).isSome = true := by
    intro c hc
    rw [← hS] at hc
    rcases List.mem_append.1 hc with hc | hc
    · rw [List.eq_of_mem_replicate hc]; decide +kernel
    · exact hs c hc
  unfold fromBase58 at h
  obtain ⟨⟨s1, sk⟩, t1, t2, h1, h2, rfl⟩ := bind_inv h
  have e1 := Base58.skipSpaces_eq cs s post 0 (fun b hb => (hc b (hs2 b hb)).1) (fun _ b hb => (hc b (hs2 b hb)).2.1)
  have hns : ∀ l : List Byte, (∀ b ∈ l, Base58Spec.isSpace b = false) → l.dropWhile Base58Spec.isSpace = l ∧ l.takeWhile Base58Spec.isSpace = [] := by
    intro l hl
    cases l with
    | nil => exact ⟨rfl, rfl⟩
    | cons a l => simp [hl a (by simp)]
  obtain ⟨n1, n2⟩ := hns s (fun b hb => (hc b (hs2 b hb)).2.2)
  rw [n1, n2, List.length_nil] at e1
  obtain ⟨_, e1', -⟩ := skipSpaces_costs cs obj post s 0 0 _ e1
  cases (ok_inj (h1.symm.trans e1')).1
  simp only at h2
  obtain ⟨⟨s2, z'⟩, t3, t4, h3, h4, rfl⟩ := bind_inv h2
  have e2 : Base58.countOnes (s ++ 0#8 :: post) 0 = .ok (d ++ 0#8 :: post, z) := by
    have key : ∀ z n, Base58.countOnes (List.replicate z 49#8 ++ d ++ 0#8 :: post) n = .ok (d ++ 0#8 :: post, n + z) := by
      intro z
      induction z with
      | zero =>
        intro n
        cases d with
        | nil => simp [Base58.countOnes, chr]
        | cons a d =>
          have : a ≠ 49#8 := fun e => hd (by rw [e]; rfl)
          rw [List.replicate_zero, List.nil_append, List.cons_append, Base58.countOnes, show chr '1' = 49#8 from by decide, if_neg this]
          rfl
      | succ z ih =>
        intro n
        rw [List.replicate_succ, List.cons_append, List.cons_append, Base58.countOnes, show chr '1' = 49#8 from by decide, if_pos rfl, ih (n + 1)]
        congr 2
        omega
    rw [← hS, key z 0, Nat.zero_add]
  obtain ⟨_, e2', -⟩ := countOnes_costs obj post s (0 + 0) 0 _ e2
  obtain ⟨e3, -⟩ := ok_inj (h3.symm.trans e2')
  obtain ⟨rfl, rfl⟩ := Prod.mk.inj e3
  simp only at h4
  split at h4
  · cases h4
  obtain ⟨size, t5, t6, h5, h6, rfl⟩ := bind_inv h4
  obtain ⟨_, t7, t8, -, h8, rfl⟩ := bind_inv h6
  obtain ⟨b, t9, t10, h9, h10, rfl⟩ := bind_inv h8
  rw [seen_ok] at h9
  cases h9
  obtain ⟨x, t11, t12, h11, -, rfl⟩ := bind_inv h10
  have hm : (((z' + d.length : Nat) : Int) - ((0 + 0 : Nat) : Int) - ((z' : Nat) : Int)) = (d.length : Int) := by omega
  rw [hm] at h5
  have hw : size = d.length * 733 / 1000 + 1 := by
    by_cases hlim : d.length * 733 < 2 ^ 31
    · rw [Base58.workSize_eq _ hlim, seen_ok] at h5
      cases h5
      rfl
    · rw [show Base58.workSize (d.length : Int) = .ub from by unfold Base58.workSize; rw [if_pos (by omega)]] at h5
      cases h5
  subst hw
  have := digitLoop_least cs _ obj post d _ 0 0 _ _ x t11 h11 hs (Base58.holds_init 256 _ (by omega)) (by simp)
    (by rw [Nat.zero_add]; exact Base58.pow_bound_dec _) (fun _ => hd) (by omega)
  simp only [work_append]
  rw [Nat.mul_zero, Nat.zero_add, ← Nat.pow_two] at this
  omega

end Leakage
