import Verif.Spec.Bech32

/-! Algebra of the Bech32 checksum register (independent of the C model). -/
namespace Bech32Spec

abbrev V := BitVec 30

def sel (b : Bool) (g : V) : V := if b then g else 0#30

theorem sel_xor (a b : Bool) (g : V) : sel (a ^^ b) g = sel a g ^^^ sel b g := by
  cases a <;> cases b <;> simp [sel]

/-- The register after feeding a zero symbol. -/
def lin (c : V) : V :=
  (c <<< 5) ^^^ sel (c.getLsbD 25) 0x3b6a57b2#30 ^^^ sel (c.getLsbD 26) 0x26508e6d#30 ^^^
    sel (c.getLsbD 27) 0x1ea119fa#30 ^^^ sel (c.getLsbD 28) 0x3d4233dd#30 ^^^
    sel (c.getLsbD 29) 0x2a1462b3#30

instance : Std.Associative (α := V) (· ^^^ ·) := ⟨BitVec.xor_assoc⟩
instance : Std.Commutative (α := V) (· ^^^ ·) := ⟨BitVec.xor_comm⟩

theorem step_eq (c : V) (v : BitVec 8) : step c v = lin c ^^^ v.setWidth 30 := by
  simp only [step, lin, sel]
  ac_rfl

theorem lin_xor (a b : V) : lin (a ^^^ b) = lin a ^^^ lin b := by
  simp only [lin, BitVec.getLsbD_xor, sel_xor, BitVec.shiftLeft_xor_distrib]
  ac_rfl

theorem lin_zero : lin 0#30 = 0#30 := by decide

/-- The feedback taken from the five top bits. -/
def fb (b0 b1 b2 b3 b4 : Bool) : V :=
  sel b0 0x3b6a57b2#30 ^^^ sel b1 0x26508e6d#30 ^^^ sel b2 0x1ea119fa#30 ^^^ sel b3 0x3d4233dd#30 ^^^
    sel b4 0x2a1462b3#30

theorem lin_fb (c : V) : lin c = (c <<< 5) ^^^ fb (c.getLsbD 25) (c.getLsbD 26) (c.getLsbD 27)
    (c.getLsbD 28) (c.getLsbD 29) := by
  simp only [lin, fb]; ac_rfl

theorem fb_low : ∀ b0 b1 b2 b3 b4 : Bool, (fb b0 b1 b2 b3 b4 &&& 31#30 = 0#30) →
    b0 = false ∧ b1 = false ∧ b2 = false ∧ b3 = false ∧ b4 = false := by decide

theorem shift_low (c : V) : (c <<< 5) &&& 31#30 = 0#30 := by
  apply BitVec.eq_of_getLsbD_eq
  intro i hi
  simp only [BitVec.getLsbD_and, BitVec.getLsbD_shiftLeft, BitVec.getLsbD_zero]
  by_cases h : i < 5
  · simp [h]
  · have : (31#30).getLsbD i = false := by
      have : ∀ i : Fin 30, 5 ≤ i.1 → (31#30).getLsbD i.1 = false := by decide
      exact this ⟨i, hi⟩ (by show 5 ≤ i; omega)
    simp [this]

theorem and_xor (a b c : V) : (a ^^^ b) &&& c = (a &&& c) ^^^ (b &&& c) := by
  apply BitVec.eq_of_getLsbD_eq
  intro i _
  simp only [BitVec.getLsbD_and, BitVec.getLsbD_xor]
  cases a.getLsbD i <;> cases b.getLsbD i <;> cases c.getLsbD i <;> rfl

/-- Feeding symbols never forgets: the zero-feed map is injective. -/
theorem lin_eq_zero {c : V} (h : lin c = 0#30) : c = 0#30 := by
  rw [lin_fb] at h
  have h2 := congrArg (· &&& 31#30) h
  simp only [and_xor, shift_low, BitVec.zero_xor, BitVec.zero_and] at h2
  obtain ⟨h25, h26, h27, h28, h29⟩ := fb_low _ _ _ _ _ h2
  rw [h25, h26, h27, h28, h29, show fb false false false false false = 0#30 from by decide,
    BitVec.xor_zero] at h
  apply BitVec.eq_of_getLsbD_eq
  intro i hi
  rw [BitVec.getLsbD_zero]
  by_cases hi2 : i < 25
  · have := congrArg (fun x => BitVec.getLsbD x (i + 5)) h
    simp only [BitVec.getLsbD_shiftLeft, BitVec.getLsbD_zero, show i + 5 < 30 by omega, decide_true,
      show ¬ (i + 5 < 5) by omega, decide_false, Nat.add_sub_cancel, Bool.true_and, Bool.not_false] at this
    exact this
  · have : i = 25 ∨ i = 26 ∨ i = 27 ∨ i = 28 ∨ i = 29 := by omega
    rcases this with rfl | rfl | rfl | rfl | rfl <;> assumption

theorem lin_inj {a b : V} (h : lin a = lin b) : a = b := by
  have : lin (a ^^^ b) = 0#30 := by rw [lin_xor, h, BitVec.xor_self]
  have := lin_eq_zero this
  exact BitVec.xor_eq_zero_iff.mp this

/-- Symbols that fit below the top of the register are just shifted. -/
theorem lin_small (c : V) (h : c.toNat < 2^25) : lin c = c <<< 5 := by
  have hb : ∀ i, 25 ≤ i → c.getLsbD i = false := by
    intro i hi
    rw [BitVec.getLsbD]
    exact Nat.testBit_lt_two_pow (Nat.lt_of_lt_of_le h (Nat.pow_le_pow_right (by omega) hi))
  rw [lin_fb, hb 25 (by omega), hb 26 (by omega), hb 27 (by omega), hb 28 (by omega), hb 29 (by omega),
    show fb false false false false false = 0#30 from by decide, BitVec.xor_zero]

theorem foldl_step_xor (l : List (BitVec 8)) (c d : V) :
    l.foldl step (c ^^^ d) = l.foldl step c ^^^ (List.replicate l.length 0#8).foldl step d := by
  induction l generalizing c d with
  | nil => rfl
  | cons v l ih =>
    simp only [List.foldl_cons, List.length_cons, List.replicate_succ]
    rw [← ih]
    congr 1
    rw [step_eq, step_eq, step_eq, lin_xor]
    have : (0#8).setWidth 30 = 0#30 := by decide
    rw [this, BitVec.xor_zero]
    ac_rfl

theorem step_inj {c d : V} {v : BitVec 8} (h : step c v = step d v) : c = d := by
  rw [step_eq, step_eq] at h
  apply lin_inj
  have := congrArg (· ^^^ v.setWidth 30) h
  simpa [BitVec.xor_assoc] using this

theorem foldl_step_inj {l : List (BitVec 8)} {c d : V} (h : l.foldl step c = l.foldl step d) : c = d := by
  induction l generalizing c d with
  | nil => exact h
  | cons v l ih => exact step_inj (ih h)

/-- Number whose base-32 digits are given, most significant first. -/
def pack (l : List (BitVec 8)) : Nat := l.foldl (fun n v => 32 * n + v.toNat) 0

theorem foldl_pack (l : List (BitVec 8)) (n : Nat) :
    l.foldl (fun n v => 32 * n + v.toNat) n = n * 32 ^ l.length + pack l := by
  induction l generalizing n with
  | nil => simp [pack]
  | cons v l ih =>
    have hp : pack (v :: l) = v.toNat * 32 ^ l.length + pack l := by
      show l.foldl _ (32 * 0 + v.toNat) = _
      rw [ih]; simp
    rw [List.foldl_cons, ih, hp, List.length_cons, Nat.pow_succ, Nat.add_mul, Nat.add_assoc]
    congr 1
    ac_rfl

theorem pack_cons (v : BitVec 8) (l : List (BitVec 8)) : pack (v :: l) = v.toNat * 32 ^ l.length + pack l := by
  rw [pack, List.foldl_cons, foldl_pack]; simp

theorem pack_lt (l : List (BitVec 8)) (h : ∀ v ∈ l, v.toNat < 32) : pack l < 32 ^ l.length := by
  induction l with
  | nil => simp [pack]
  | cons v l ih =>
    rw [pack_cons, List.length_cons, Nat.pow_succ]
    have h1 := h v (by simp)
    have h2 := ih (fun v hv => h v (by simp [hv]))
    have := Nat.mul_le_mul_right (32 ^ l.length) (show v.toNat ≤ 31 by omega)
    rw [Nat.mul_comm (32 ^ l.length)]
    omega

theorem pack_inj (l m : List (BitVec 8)) (hl : ∀ v ∈ l, v.toNat < 32) (hm : ∀ v ∈ m, v.toNat < 32)
    (hlen : l.length = m.length) (h : pack l = pack m) : l = m := by
  induction l generalizing m with
  | nil => cases m with
    | nil => rfl
    | cons _ _ => simp at hlen
  | cons v l ih => cases m with
    | nil => simp at hlen
    | cons w m =>
      simp only [List.length_cons, Nat.add_right_cancel_iff] at hlen
      rw [pack_cons, pack_cons, hlen] at h
      have h1 := pack_lt l (fun v hv => hl v (by simp [hv]))
      have h2 := pack_lt m (fun v hv => hm v (by simp [hv]))
      rw [hlen] at h1
      have hp : 0 < 32 ^ m.length := Nat.pow_pos (by omega)
      have hvw : v.toNat = w.toNat := by
        have e1 : (v.toNat * 32 ^ m.length + pack l) / 32 ^ m.length = v.toNat := by
          rw [Nat.mul_comm, Nat.mul_add_div hp, Nat.div_eq_of_lt h1]; rfl
        have e2 : (w.toNat * 32 ^ m.length + pack m) / 32 ^ m.length = w.toNat := by
          rw [Nat.mul_comm, Nat.mul_add_div hp, Nat.div_eq_of_lt h2]; rfl
        rw [← e1, ← e2, h]
      have hv : v = w := BitVec.eq_of_toNat_eq hvw
      subst hv
      rw [ih m (fun v hv => hl v (by simp [hv])) (fun v hv => hm v (by simp [hv])) hlen (by omega)]

/-- From the zero register, up to six symbols are simply collected. -/
theorem foldl_step_small (l : List (BitVec 8)) (h : ∀ v ∈ l, v.toNat < 32) (n k : Nat)
    (hk : k + l.length ≤ 6) (hn : n < 32 ^ k) :
    l.foldl step (BitVec.ofNat 30 n) = BitVec.ofNat 30 (l.foldl (fun n v => 32 * n + v.toNat) n) := by
  induction l generalizing n k with
  | nil => rfl
  | cons v l ih =>
    simp only [List.length_cons] at hk
    have hv := h v (by simp)
    rw [List.foldl_cons, List.foldl_cons, ← ih (fun v hv => h v (by simp [hv])) (32 * n + v.toNat) (k+1)
      (by omega) (by rw [Nat.pow_succ]; omega)]
    congr 1
    have h25 : n < 2^25 := by
      have : (32:Nat) ^ k ≤ 32 ^ 5 := Nat.pow_le_pow_right (by omega) (by omega)
      have h5 : (32:Nat)^5 = 2^25 := by decide
      omega
    rw [step_eq, lin_small _ (by rw [BitVec.toNat_ofNat, Nat.mod_eq_of_lt (by omega)]; exact h25)]
    apply BitVec.eq_of_toNat_eq
    rw [BitVec.toNat_xor, BitVec.toNat_shiftLeft, BitVec.toNat_ofNat, BitVec.toNat_ofNat,
      BitVec.toNat_setWidth, Nat.mod_eq_of_lt (show n < 2^30 by omega),
      Nat.mod_eq_of_lt (show v.toNat < 2^30 by omega), Nat.shiftLeft_eq,
      Nat.mod_eq_of_lt (show n * 2^5 < 2^30 by omega), Nat.mod_eq_of_lt (show 32*n+v.toNat < 2^30 by omega)]
    rw [show 32 * n + v.toNat = 2^5 * n + v.toNat by omega, Nat.two_pow_add_eq_or_of_lt (by omega)]
    rw [Nat.mul_comm n]
    apply Nat.eq_of_testBit_eq
    intro i
    rw [Nat.testBit_xor, Nat.testBit_or, Nat.testBit_two_pow_mul]
    by_cases hi : 5 ≤ i
    · rw [Nat.testBit_lt_two_pow (Nat.lt_of_lt_of_le (show v.toNat < 2^5 by omega)
        (Nat.pow_le_pow_right (by omega) hi))]
      simp
    · simp [hi]

theorem foldl_step_zero (l : List (BitVec 8)) (h : ∀ v ∈ l, v.toNat < 32) (hl : l.length ≤ 6) :
    l.foldl step 0#30 = BitVec.ofNat 30 (pack l) :=
  foldl_step_small l h 0 0 (by omega) (by simp)

/-- Feeding six symbols: feed six zeros and add the packed symbols. -/
theorem foldl_six (l : List (BitVec 8)) (h : ∀ v ∈ l, v.toNat < 32) (hl : l.length = 6) (c : V) :
    l.foldl step c = (List.replicate 6 0#8).foldl step c ^^^ BitVec.ofNat 30 (pack l) := by
  have h1 := foldl_step_xor l 0#30 c
  rw [BitVec.zero_xor, foldl_step_zero l h (by omega), hl] at h1
  rw [h1, BitVec.xor_comm]

theorem six_explicit (l : List (BitVec 8)) (hl : l.length = 6) : ∃ a b c d e f, l = [a, b, c, d, e, f] := by
  match l, hl with
  | [a, b, c, d, e, f], _ => exact ⟨a, b, c, d, e, f, rfl⟩

/-- The six digits of a register value. -/
def unpack (p : V) : List (BitVec 8) := (List.range 6).map fun i => (p >>> (5 * (5 - i))).setWidth 8 &&& 31#8

theorem unpack_toNat (p : V) (i : Nat) :
    ((p >>> i).setWidth 8 &&& 31#8).toNat = p.toNat / 2^i % 32 := by
  rw [BitVec.toNat_and, BitVec.toNat_setWidth, BitVec.toNat_ushiftRight, Nat.shiftRight_eq_div_pow,
    show (31#8).toNat = 2^5 - 1 from by decide, Nat.and_two_pow_sub_one_eq_mod]
  omega

theorem unpack_lt (p : V) (v : BitVec 8) (h : v ∈ unpack p) : v.toNat < 32 := by
  obtain ⟨i, _, rfl⟩ := List.mem_map.mp h
  rw [unpack_toNat]; exact Nat.mod_lt _ (by omega)

theorem unpack_length (p : V) : (unpack p).length = 6 := rfl

theorem pack_unpack (p : V) : pack (unpack p) = p.toNat := by
  have : unpack p = [(p >>> 25).setWidth 8 &&& 31#8, (p >>> 20).setWidth 8 &&& 31#8,
    (p >>> 15).setWidth 8 &&& 31#8, (p >>> 10).setWidth 8 &&& 31#8, (p >>> 5).setWidth 8 &&& 31#8,
    (p >>> 0).setWidth 8 &&& 31#8] := rfl
  rw [this]
  simp only [pack, List.foldl_cons, List.foldl_nil, unpack_toNat]
  have := p.isLt
  omega

/-- The checksum is the unique six symbols that make the register 1. -/
theorem checksum_unique (vals sum : List (BitVec 8)) (hl : sum.length = 6) (h : ∀ v ∈ sum, v.toNat < 32) :
    polymod (vals ++ sum) = 1#30 ↔
      sum = unpack (polymod (vals ++ List.replicate 6 0#8) ^^^ 1#30) := by
  unfold polymod
  rw [List.foldl_append, foldl_six sum h hl, List.foldl_append]
  generalize (List.replicate 6 0#8).foldl step (vals.foldl step 1#30) = P
  have hlt := pack_lt sum h
  rw [hl] at hlt
  constructor
  · intro he
    have : BitVec.ofNat 30 (pack sum) = P ^^^ 1#30 := by
      rw [← he, ← BitVec.xor_assoc, BitVec.xor_self, BitVec.zero_xor]
    apply pack_inj _ _ h (unpack_lt _) (by rw [hl, unpack_length])
    rw [pack_unpack, ← this, BitVec.toNat_ofNat, Nat.mod_eq_of_lt (by omega)]
  · intro he
    rw [he, pack_unpack, BitVec.ofNat_toNat, BitVec.setWidth_eq, ← BitVec.xor_assoc, BitVec.xor_self,
      BitVec.zero_xor]

theorem checksum_eq (hrp data : List (BitVec 8)) :
    checksum hrp data = unpack (polymod (hrpExpand hrp ++ data ++ List.replicate 6 0#8) ^^^ 1#30) := rfl

/-- Burst errors: two symbol strings that agree except in at most six consecutive symbols never
lead to the same register value. -/
theorem burst (c : V) (p x y q : List (BitVec 8)) (hlen : x.length = y.length) (h6 : x.length ≤ 6)
    (hx : ∀ v ∈ x, v.toNat < 32) (hy : ∀ v ∈ y, v.toNat < 32)
    (h : (p ++ x ++ q).foldl step c = (p ++ y ++ q).foldl step c) : x = y := by
  simp only [List.foldl_append] at h
  have h1 := foldl_step_inj h
  generalize p.foldl step c = d at h1
  have e1 := foldl_step_xor x 0#30 d
  have e2 := foldl_step_xor y 0#30 d
  rw [BitVec.zero_xor] at e1 e2
  rw [e1, e2, hlen, foldl_step_zero x hx h6, foldl_step_zero y hy (by omega)] at h1
  have h2 := congrArg (· ^^^ (List.replicate y.length 0#8).foldl step d) h1
  simp only [BitVec.xor_assoc, BitVec.xor_self, BitVec.xor_zero] at h2
  apply pack_inj x y hx hy hlen
  have h3 := congrArg BitVec.toNat h2
  have b1 := pack_lt x hx
  have b2 := pack_lt y hy
  have b3 : (32:Nat) ^ x.length ≤ 32 ^ 6 := Nat.pow_le_pow_right (by omega) h6
  rw [← hlen] at b2
  rw [BitVec.toNat_ofNat, BitVec.toNat_ofNat, Nat.mod_eq_of_lt (by omega), Nat.mod_eq_of_lt (by omega)] at h3
  exact h3

end Bech32Spec
