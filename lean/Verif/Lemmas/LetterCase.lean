import Verif.Model.Address
import Verif.Lemmas.Need
import Verif.Spec.Bech32
/-! Lemmas for C109: readers that look at characters only up to their letter case, and readers whose results do
not depend on what was in the output object before. -/
open Bech32Spec

/-- The same text up to the case of its letters. -/
def SameLetters (s s' : List Byte) : Prop := s.map lower = s'.map lower

namespace SameLetters
variable {s s' : List Byte}

theorem length (h : SameLetters s s') : s.length = s'.length := by
  have := congrArg List.length h
  simpa using this

theorem append {t t' : List Byte} (h : SameLetters s s') (h' : SameLetters t t') : SameLetters (s ++ t) (s' ++ t') := by
  unfold SameLetters at *
  rw [List.map_append, List.map_append, h, h']

theorem rfl' : SameLetters s s := rfl

theorem get (h : SameLetters s s') (i : Nat) : (s[i]?).map lower = (s'[i]?).map lower := by
  rw [← List.getElem?_map, ← List.getElem?_map, h]

/-- A step that looks at a character only up to its case. -/
theorem bind {γ : Type} (h : SameLetters s s') (i : Nat) (f g : Byte → Res γ)
    (hf : ∀ c d, lower c = lower d → f c = g d) : (rd s i >>= f) = (rd s' i >>= g) := by
  have := h.get i
  rw [rd, rd]
  cases h1 : s[i]? with
  | none =>
    cases h2 : s'[i]? with
    | none => rfl
    | some d => rw [h1, h2] at this; cases this
  | some c =>
    cases h2 : s'[i]? with
    | none => rw [h1, h2] at this; cases this
    | some d =>
      rw [h1, h2] at this
      exact hf c d (Option.some.inj this)

theorem mem (h : SameLetters s s') {c : Byte} (hc : c ∈ s) : ∃ d ∈ s', lower c = lower d := by
  have : lower c ∈ s'.map lower := by rw [← h]; exact List.mem_map_of_mem hc
  obtain ⟨d, hd, e⟩ := List.mem_map.mp this
  exact ⟨d, hd, e.symm⟩

theorem symm (h : SameLetters s s') : SameLetters s' s := Eq.symm h
end SameLetters

/-- A table that gives the same for both cases. -/
theorem table_case {α : Type} (T : List α) (hT : ∀ c : Byte, T[c.toNat]? = T[(lower c).toNat]?) (c d : Byte)
    (h : lower c = lower d) : rd T c.toNat = rd T d.toNat := by
  rw [rd, rd, hT c, hT d, h]

namespace LetterCase

theorem lower_self : ∀ c : Byte, lower (lower c) = lower c := by decide +kernel
theorem lower_high : ∀ c : Byte, (128 ≤ (lower c).toNat ↔ 128 ≤ c.toNat) := by decide +kernel
theorem lower_visible : ∀ c : Byte, (33 ≤ (lower c).toNat ∧ (lower c).toNat ≤ 126 ↔ 33 ≤ c.toNat ∧ c.toNat ≤ 126) := by decide +kernel
theorem lower_nul : ∀ c : Byte, (lower c = 0#8 ↔ c = 0#8) := by decide +kernel
theorem lower_one : ∀ c : Byte, (lower c = 49#8 ↔ c = 49#8) := by decide +kernel
theorem lower_pad : ∀ c : Byte, (lower c = 61#8 ↔ c = 61#8) := by decide +kernel

theorem hex_table : ∀ c : Byte, Hex.HEX_MAP[c.toNat]? = Hex.HEX_MAP[(lower c).toNat]? := by decide +kernel
theorem base32_table : ∀ c : Byte, Base32.BASE32_DECODE[c.toNat]? = Base32.BASE32_DECODE[(lower c).toNat]? := by decide +kernel
theorem bech32_table : ∀ c : Byte, Bech32.BECH32_DECODE[c.toNat]? = Bech32.BECH32_DECODE[(lower c).toNat]? := by decide +kernel

theorem iff_of_lower {P : Byte → Prop} (hP : ∀ c, P (lower c) ↔ P c) {c d : Byte} (h : lower c = lower d) : P c ↔ P d := by
  rw [← hP c, h, hP d]

theorem strchr_case (e : Byte) (he : ∀ c, lower c = e ↔ c = e) {s s' : List Byte} (h : SameLetters s s') (i : Nat) :
    strchrFrom e s i = strchrFrom e s' i := by
  induction s generalizing s' i with
  | nil =>
    cases s' with
    | nil => rfl
    | cons d s' => cases h
  | cons c s ih =>
    cases s' with
    | nil => cases h
    | cons d s' =>
      unfold SameLetters at h
      rw [List.map_cons, List.map_cons] at h
      injection h with h1 h2
      rw [strchrFrom, strchrFrom]
      simp only [iff_of_lower (P := (· = e)) he h1, iff_of_lower (P := (· = 0)) lower_nul h1, ih h2 (i + 1)]

theorem strrchr_case (e : Byte) (he : ∀ c, lower c = e ↔ c = e) {s s' : List Byte} (h : SameLetters s s') (i : Nat)
    (last : Option Nat) : strrchrFrom e s i last = strrchrFrom e s' i last := by
  induction s generalizing s' i last with
  | nil =>
    cases s' with
    | nil => rfl
    | cons d s' => cases h
  | cons c s ih =>
    cases s' with
    | nil => cases h
    | cons d s' =>
      unfold SameLetters at h
      rw [List.map_cons, List.map_cons] at h
      injection h with h1 h2
      rw [strrchrFrom, strrchrFrom]
      simp only [iff_of_lower (P := (· = e)) he h1, iff_of_lower (P := (· = 0#8)) lower_nul h1, ih h2 (i + 1)]

theorem decAt_case (cs : Bool) {s s' : List Byte} (h : SameLetters s s') (i : Nat) :
    Base32.decAt cs false s i = Base32.decAt cs false s' i := by
  unfold Base32.decAt
  refine h.bind i _ _ ?_
  intro c d e
  have h1 : decide (c.toNat ≥ 128) = decide (d.toNat ≥ 128) := by
    rw [decide_eq_decide]
    exact iff_of_lower (P := fun c : Byte => c.toNat ≥ 128) lower_high e
  have h2 := table_case _ base32_table c d e
  rw [h1]
  show (if _ then _ else rd Base32.BASE32_DECODE c.toNat) = (if _ then _ else rd Base32.BASE32_DECODE d.toNat)
  rw [h2]

theorem fromBase32_case (cs : Bool) {s s' : List Byte} (h : SameLetters s s') (n : Nat) (buf : List Byte) :
    Base32.fromBase32 cs s n buf = Base32.fromBase32 cs s' n buf := by
  have e1 : Base32.strlen s n = Base32.strlen s' n := by
    unfold Base32.strlen strchr
    rw [strchr_case (chr '=') lower_pad h 0]
  have e2 : Base32.decBody cs false s = Base32.decBody cs false s' := by
    funext i b
    unfold Base32.decBody
    simp only [decAt_case cs h]
  have e3 : Base32.decTail cs false s = Base32.decTail cs false s' := by
    funext a b c
    unfold Base32.decTail
    simp only [decAt_case cs h]
  unfold Base32.fromBase32 Base32.fromBase32Impl
  rw [e1, e2, e3]

theorem fromHex_case {s s' : List Byte} (h : SameLetters s s') (n : Nat) (buf : List Byte) :
    Hex.fromHex s n buf = Hex.fromHex s' n buf := by
  unfold Hex.fromHex
  congr 1
  congr 1
  funext j st
  refine h.bind _ _ _ ?_
  intro c d e
  rw [table_case _ hex_table c d e]
  congr 1
  funext hi
  refine h.bind _ _ _ ?_
  intro c d e
  rw [table_case _ hex_table c d e]

theorem toLower_eq (c : Byte) : Bech32.toLower c = lower c := rfl

theorem decodeChars_case {s s' : List Byte} (h : SameLetters s s') (p n : Nat) (out : List Byte) :
    Bech32.decodeChars s p n out = Bech32.decodeChars s' p n out := by
  have : Bech32.decodeBody s p = Bech32.decodeBody s' p := by
    funext i o
    unfold Bech32.decodeBody
    refine h.bind _ _ _ ?_
    intro c d e
    rw [table_case _ bech32_table c d e]
  unfold Bech32.decodeChars
  rw [this]

theorem decodeAt_case {s s' : List Byte} (h : SameLetters s s') (n pos : Nat) (hrp b32 : List Byte) :
    Bech32.decodeAt s n pos hrp b32 = Bech32.decodeAt s' n pos hrp b32 := by
  unfold Bech32.decodeAt
  simp only [decodeChars_case h]
  congr 1
  congr 1
  funext i o
  refine h.bind _ _ _ ?_
  intro c d e
  rw [toLower_eq, toLower_eq, e]

end LetterCase

/-! Results that do not depend on the old contents of the output object. -/

/-- Two objects of one size that agree on the first `k` bytes. -/
def AgreeOn (k : Nat) (a b : List Byte) : Prop := a.length = b.length ∧ a.take k = b.take k

/-- The same count, and the counted bytes are the same. -/
def SameRead (a b : List Byte × Nat) : Prop := a.2 = b.2 ∧ AgreeOn a.2 a.1 b.1

def StepRead (k : Nat) : Step (List Byte) (List Byte × Nat) → Step (List Byte) (List Byte × Nat) → Prop
  | .next a, .next b => AgreeOn k a b
  | .stop a, .stop b => SameRead a b
  | _, _ => False

namespace AgreeOn

theorem wr {k : Nat} {a b : List Byte} (h : AgreeOn k a b) (v : Byte) : Sim (AgreeOn (k + 1)) (wr a k v) (wr b k v) := by
  obtain ⟨h1, h2⟩ := h
  unfold _root_.wr
  by_cases hk : k < a.length
  · rw [if_pos hk, if_pos (by omega)]
    refine ⟨_, rfl, by simpa using h1, ?_⟩
    rw [List.take_add_one, List.take_add_one, List.take_set, List.take_set]
    have e1 : (a.set k v)[k]? = some v := by rw [List.getElem?_set_self hk]
    have e2 : (b.set k v)[k]? = some v := by rw [List.getElem?_set_self (by omega)]
    rw [e1, e2, h2]
  · rw [if_neg hk]; trivial

theorem wrs (vs : List Byte) : ∀ {k : Nat} {a b : List Byte}, AgreeOn k a b →
    Sim (AgreeOn (k + vs.length)) (wrs a k vs) (wrs b k vs) := by
  induction vs with
  | nil => intro k a b h; exact ⟨_, rfl, h⟩
  | cons v vs ih =>
    intro k a b h
    rw [_root_.wrs, _root_.wrs]
    refine Sim.bind (h.wr v) ?_
    intro a b h
    have := ih h
    rwa [show k + 1 + vs.length = k + (v :: vs).length by simp; omega] at this

end AgreeOn

namespace LetterCase

theorem decBody_read (cs raw : Bool) (s : List Byte) (i : Nat) {a b : List Byte} (h : AgreeOn (5 * i) a b) :
    Sim (StepRead (5 * (i + 1))) (Base32.decBody cs raw s i a) (Base32.decBody cs raw s i b) := by
  unfold Base32.decBody
  refine Sim.same fun _ => Sim.same fun _ => Sim.same fun _ => Sim.same fun _ => Sim.same fun _ =>
    Sim.same fun _ => Sim.same fun _ => Sim.same fun _ => Sim.ite ?_ ?_
  · exact ⟨_, rfl, rfl, h⟩
  · exact Sim.bind (h.wrs _) fun a b h => ⟨_, rfl, h⟩

theorem loop_read {f : Nat → List Byte → Res (Step (List Byte) (List Byte × Nat))}
    (hf : ∀ i a b, AgreeOn (5 * i) a b → Sim (StepRead (5 * (i + 1))) (f i a) (f i b)) (n : Nat) :
    ∀ (i : Nat) (a b : List Byte), AgreeOn (5 * i) a b → Sim (StepRead (5 * (i + n))) (forLoopB f i n a) (forLoopB f i n b) := by
  induction n with
  | zero => intro i a b h; exact ⟨_, rfl, h⟩
  | succ n ih =>
    intro i a b h
    rw [forLoopB, forLoopB]
    refine Sim.bind (hf i a b h) ?_
    intro x y hxy
    cases x with
    | next a =>
      cases y with
      | next b =>
        have := ih (i + 1) a b hxy
        rwa [show i + 1 + n = i + (n + 1) by omega] at this
      | stop b => cases hxy
    | stop a =>
      cases y with
      | next b => cases hxy
      | stop b => exact ⟨_, rfl, hxy⟩

theorem decTail_read (cs raw : Bool) (s : List Byte) (n t : Nat) {a b : List Byte} (h : AgreeOn (5 * n) a b) :
    Sim SameRead (Base32.decTail cs raw s n t a) (Base32.decTail cs raw s n t b) := by
  unfold Base32.decTail
  refine Sim.same fun _ => Sim.ite ?_ ⟨_, rfl, rfl, h⟩
  refine Sim.same fun _ => Sim.same fun _ => Sim.bind (h.wr _) fun a b h => Sim.ite ?_ ⟨_, rfl, rfl, h⟩
  refine Sim.same fun _ => Sim.same fun _ => Sim.bind (h.wr _) fun a b h => Sim.ite ?_ ⟨_, rfl, rfl, h⟩
  refine Sim.same fun _ => Sim.bind (h.wr _) fun a b h => Sim.ite ?_ ⟨_, rfl, rfl, h⟩
  exact Sim.same fun _ => Sim.same fun _ => Sim.bind (h.wr _) fun a b h => ⟨_, rfl, rfl, h⟩

theorem fromBase32Impl_read (cs raw : Bool) (s : List Byte) (n : Nat) {a b : List Byte} (h : a.length = b.length) :
    Sim SameRead (Base32.fromBase32Impl cs s n a raw) (Base32.fromBase32Impl cs s n b raw) := by
  unfold Base32.fromBase32Impl
  refine Sim.same fun m => Sim.bind (loop_read (decBody_read cs raw s) (m / 8) 0 a b ⟨h, by simp⟩) ?_
  intro x y hxy
  cases x with
  | next a =>
    cases y with
    | next b =>
      rw [Nat.zero_add] at hxy
      exact decTail_read cs raw s _ _ hxy
    | stop b => cases hxy
  | stop a =>
    cases y with
    | next b => cases hxy
    | stop b => exact ⟨_, rfl, hxy⟩

open Address

/-- The same address: kind, size, and if it is one its bytes. -/
def SameAddress (r r' : Decoded) : Prop :=
  r'.kind = r.kind ∧ r'.outSize = r.outSize ∧ (r.kind ≠ .bad → r'.out.take r'.outSize = r.out.take r.outSize)

theorem decodeWitness_read (cs : Bool) (buf : List Byte) (n m : Nat) {a b : List Byte} (h : a.length = b.length) :
    Sim SameAddress (decodeWitness cs buf n a m) (decodeWitness cs buf n b m) := by
  unfold decodeWitness
  refine Sim.same fun _ => Sim.ite ?_ ⟨_, rfl, rfl, rfl, fun hb => absurd rfl hb⟩
  refine Sim.same fun v => Sim.ite ?_ ?_
  · refine Sim.bind (fromBase32Impl_read cs true _ _ h) ?_
    rintro ⟨a, k⟩ ⟨b, k'⟩ ⟨rfl, -, h2⟩
    exact Sim.ite ⟨_, rfl, rfl, rfl, fun _ => h2.symm⟩ (Sim.ite ⟨_, rfl, rfl, rfl, fun _ => h2.symm⟩
      ⟨_, rfl, rfl, rfl, fun _ => h2.symm⟩)
  · refine Sim.bindOk (AgreeOn.wr (k := 0) ⟨h, by simp⟩ v) ?_
    intro a' b he h
    have h1 : 1 ≤ a'.length := by
      unfold _root_.wr at he
      by_cases h0 : 0 < a.length
      · rw [if_pos h0] at he
        rw [← Res.ok.inj he, List.length_set]
        omega
      · rw [if_neg h0] at he
        cases he
    refine Sim.bind (fromBase32Impl_read cs true _ _ (by rw [List.length_drop, List.length_drop, h.1])) ?_
    rintro ⟨x, k⟩ ⟨y, k'⟩ ⟨rfl, -, h2⟩
    have e : (b.take 1 ++ y).take (k + 1) = (a'.take 1 ++ x).take (k + 1) := by
      have h2 : x.take k = y.take k := h2
      have l : (a'.take 1).length = 1 := by rw [List.length_take]; omega
      have h3 : a'.take 1 = b.take 1 := h.2
      rw [← h3, List.take_append, List.take_append, l, Nat.add_sub_cancel, h2]
    exact Sim.ite ⟨_, rfl, rfl, rfl, fun _ => e⟩ ⟨_, rfl, rfl, rfl, fun _ => e⟩

end LetterCase
