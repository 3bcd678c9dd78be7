import Verif.Model.InPlace
import Verif.Lemmas.Hex
import Verif.Lemmas.Base64
import Verif.Lemmas.Base32

namespace InPlace

/-- The object whose part from `b` on is the output buffer `buf`. -/
def put (mem0 : List Byte) (b : Nat) (buf : List Byte) : List Byte := mem0.take b ++ buf

/-- From offset `k` on the object is still as it was at the beginning. -/
def Inv (mem0 : List Byte) (b k : Nat) (buf : List Byte) : Prop :=
  b ≤ mem0.length ∧ ∀ i, k ≤ i → (put mem0 b buf)[i]? = mem0[i]?

theorem Inv.mono {mem0 b k k' buf} (h : Inv mem0 b k buf) (hk : k ≤ k') : Inv mem0 b k' buf :=
  ⟨h.1, fun i hi => h.2 i (by omega)⟩

theorem inv_start (mem0 : List Byte) (b k : Nat) (hb : b ≤ mem0.length) : Inv mem0 b k (mem0.drop b) :=
  ⟨hb, fun i _ => by rw [put, List.take_append_drop]⟩

theorem put_start (mem0 : List Byte) (b : Nat) : put mem0 b (mem0.drop b) = mem0 := List.take_append_drop _ _

theorem rd_put {mem0 b k buf} (h : Inv mem0 b k buf) (a i : Nat) (hi : k ≤ a + i) :
    rd (put mem0 b buf) (a + i) = rd (mem0.drop a) i := by
  unfold rd
  rw [h.2 _ hi, List.getElem?_drop]

theorem wr_put (mem0 : List Byte) (b : Nat) (hb : b ≤ mem0.length) (buf : List Byte) (p : Nat) (v : Byte) :
    wr (put mem0 b buf) (b + p) v = (wr buf p v >>= fun buf' => pure (put mem0 b buf')) := by
  unfold wr put
  have hl : (mem0.take b).length = b := by simp [hb]
  by_cases hp : p < buf.length
  · rw [if_pos (by simp; omega), if_pos hp, Res.ok_bind, Res.pure_eq, List.set_append_right _ _ (by omega), hl,
      Nat.add_sub_cancel_left]
  · rw [if_neg (by simp; omega), if_neg hp]; rfl

theorem inv_wr {mem0 b k buf} (h : Inv mem0 b k buf) {p : Nat} {v : Byte} {buf' : List Byte} (hw : wr buf p v = .ok buf')
    {k' : Nat} (hk : k ≤ k') (hp : b + p < k') : Inv mem0 b k' buf' := by
  refine ⟨h.1, fun i hi => ?_⟩
  have hl : (mem0.take b).length = b := by simp [h.1]
  unfold wr at hw
  split at hw
  · cases hw
    rw [← h.2 i (by omega)]
    unfold put
    rw [List.getElem?_append_right (by omega), List.getElem?_append_right (by omega), hl, List.getElem?_set_ne (by omega)]
  · cases hw

theorem wrs_put (mem0 : List Byte) (b : Nat) (hb : b ≤ mem0.length) (vs buf : List Byte) (p : Nat) :
    wrs (put mem0 b buf) (b + p) vs = (wrs buf p vs >>= fun buf' => pure (put mem0 b buf')) := by
  induction vs generalizing buf p with
  | nil => rfl
  | cons v vs ih =>
    rw [wrs, wrs, wr_put mem0 b hb]
    cases hw : wr buf p v with
    | ok buf' => simp only [Res.ok_bind, Res.pure_eq]; exact ih buf' (p+1)
    | ub => rfl
    | abort => rfl

theorem inv_wrs {mem0 b} (vs : List Byte) {k : Nat} {buf : List Byte} (h : Inv mem0 b k buf) {p : Nat} {buf' : List Byte}
    (hw : wrs buf p vs = .ok buf') {k' : Nat} (hk : k ≤ k') (hp : b + p + vs.length ≤ k') : Inv mem0 b k' buf' := by
  induction vs generalizing buf p k with
  | nil => cases hw; exact h.mono hk
  | cons v vs ih =>
    rw [wrs] at hw
    cases hw1 : wr buf p v with
    | ok buf1 =>
      rw [hw1, Res.ok_bind] at hw
      have hl : b + p + (vs.length + 1) ≤ k' := by simpa using hp
      exact ih (inv_wr h hw1 hk (by omega)) hw (Nat.le_refl _) (by omega)
    | ub => rw [hw1] at hw; cases hw
    | abort => rw [hw1] at hw; cases hw

/-- The result of a step with a separate buffer, seen in the object. -/
def putStep {σ ρ : Type} (f : σ → σ) (g : ρ → ρ) : Step σ ρ → Step σ ρ
  | .next s => .next (f s)
  | .stop r => .stop (g r)

/-- Two loops that go in step. -/
theorem loop_put {σ ρ : Type} (f g : Nat → σ → Res (Step σ ρ)) (p : σ → σ) (q : ρ → ρ) (I : Nat → σ → Prop)
    (h : ∀ j s, I j s → f j (p s) = (g j s >>= fun r => pure (putStep p q r)) ∧ ∀ s', g j s = .ok (.next s') → I (j+1) s')
    (k j : Nat) (s : σ) (hs : I j s) :
    forLoopB f j k (p s) = (forLoopB g j k s >>= fun r => pure (putStep p q r)) ∧
      ∀ s', forLoopB g j k s = .ok (.next s') → I (j+k) s' := by
  induction k generalizing j s with
  | zero =>
    refine ⟨rfl, fun s' hs' => ?_⟩
    cases hs'; exact hs
  | succ k ih =>
    obtain ⟨h1, h2⟩ := h j s hs
    rw [forLoopB, forLoopB, h1]
    cases hg : g j s with
    | ub => exact ⟨rfl, fun s' hs' => by cases hs'⟩
    | abort => exact ⟨rfl, fun s' hs' => by cases hs'⟩
    | ok r =>
      cases r with
      | stop r => exact ⟨rfl, fun s' hs' => by cases hs'⟩
      | next s1 =>
        obtain ⟨e1, e2⟩ := ih (j+1) s1 (h2 s1 hg)
        refine ⟨by simpa [putStep] using e1, fun s' hs' => ?_⟩
        rw [show j + (k+1) = j + 1 + k by omega]
        exact e2 s' hs'

/-- The result of a decoder with a separate buffer, seen in the object. -/
def putOut (mem0 : List Byte) (b : Nat) (r : List Byte × Nat) : List Byte × Nat := (put mem0 b r.1, r.2)

/-! ### hex -/

theorem hex_body (mem0 : List Byte) (a b : Nat) (hba : b ≤ a) (j : Nat) (s : List Byte × Nat)
    (hI : Inv mem0 b (a + 2*j) s.1 ∧ s.2 ≤ j) :
    hexBody a b j (putOut mem0 b s) =
        (Hex.fromBody (mem0.drop a) j s >>= fun r => pure (putStep (putOut mem0 b) (putOut mem0 b) r)) ∧
      ∀ s', Hex.fromBody (mem0.drop a) j s = .ok (.next s') → Inv mem0 b (a + 2*(j+1)) s'.1 ∧ s'.2 ≤ j+1 := by
  obtain ⟨buf, o⟩ := s
  obtain ⟨hI, ho⟩ := hI
  simp only at hI ho
  unfold hexBody Hex.fromBody putOut
  simp only [rd_put hI a (2*j) (by omega), rd_put hI a (2*j+1) (by omega)]
  cases h1 : rd (mem0.drop a) (2*j) with
  | ub => exact ⟨rfl, fun _ h => by cases h⟩
  | abort => exact ⟨rfl, fun _ h => by cases h⟩
  | ok c1 =>
  simp only [Res.ok_bind]
  cases h2 : rd Hex.HEX_MAP c1.toNat with
  | ub => exact ⟨rfl, fun _ h => by cases h⟩
  | abort => exact ⟨rfl, fun _ h => by cases h⟩
  | ok hi =>
  simp only [Res.ok_bind]
  cases h3 : rd (mem0.drop a) (2*j+1) with
  | ub => exact ⟨rfl, fun _ h => by cases h⟩
  | abort => exact ⟨rfl, fun _ h => by cases h⟩
  | ok c2 =>
  simp only [Res.ok_bind]
  cases h4 : rd Hex.HEX_MAP c2.toNat with
  | ub => exact ⟨rfl, fun _ h => by cases h⟩
  | abort => exact ⟨rfl, fun _ h => by cases h⟩
  | ok lo =>
  simp only [Res.ok_bind]
  by_cases hc : hi = 0xFF ∨ lo = 0xFF
  · rw [if_pos hc, if_pos hc]
    exact ⟨rfl, fun _ h => by cases h⟩
  · rw [if_neg hc, if_neg hc, wr_put mem0 b hI.1]
    cases hw : wr buf o (hi <<< 4 ||| lo) with
    | ub => exact ⟨rfl, fun _ h => by cases h⟩
    | abort => exact ⟨rfl, fun _ h => by cases h⟩
    | ok buf' =>
      refine ⟨rfl, fun s' h => ?_⟩
      cases h
      exact ⟨inv_wr hI hw (by omega) (by omega), by simp only; omega⟩

theorem fromHex_put (mem0 : List Byte) (a n b : Nat) (hba : b ≤ a) (ha : a ≤ mem0.length) :
    fromHex mem0 a n b = (Hex.fromHex (mem0.drop a) n (mem0.drop b) >>= fun r => pure (putOut mem0 b r)) := by
  have h := (loop_put (hexBody a b) (Hex.fromBody (mem0.drop a)) (putOut mem0 b) (putOut mem0 b)
    (fun j s => Inv mem0 b (a + 2*j) s.1 ∧ s.2 ≤ j) (hex_body mem0 a b hba) (n/2) 0 (mem0.drop b, 0)
    ⟨inv_start mem0 b _ (by omega), by simp⟩).1
  have hp : putOut mem0 b (mem0.drop b, 0) = (mem0, 0) := by rw [putOut, put_start]
  rw [hp] at h
  unfold fromHex
  rw [h]
  change _ = ((forLoopB (Hex.fromBody (mem0.drop a)) 0 (n/2) (mem0.drop b, 0) >>= _) >>= _)
  cases forLoopB (Hex.fromBody (mem0.drop a)) 0 (n/2) (mem0.drop b, 0) with
  | ub => rfl
  | abort => rfl
  | ok r => cases r <;> rfl


/-! ### runs that go in step -/

/-- `x` is the run in the object, `y` the run with a separate buffer: same outcome seen through `q`, and `J` holds of it. -/
def Sim {ρ : Type} (q : ρ → ρ) (J : ρ → Prop) (x y : Res ρ) : Prop := x = (y >>= fun r => pure (q r)) ∧ ∀ r, y = .ok r → J r

theorem sim_bind {ρ α : Type} {q : ρ → ρ} {J : ρ → Prop} (e : Res α) {F G : α → Res ρ}
    (h : ∀ x, e = .ok x → Sim q J (F x) (G x)) : Sim q J (e >>= F) (e >>= G) := by
  cases e with
  | ok x => exact h x rfl
  | ub => exact ⟨rfl, fun _ h => by cases h⟩
  | abort => exact ⟨rfl, fun _ h => by cases h⟩

theorem sim_wr {ρ : Type} {q : ρ → ρ} {J : ρ → Prop} {mem0 : List Byte} {b : Nat} (hb : b ≤ mem0.length) {buf : List Byte} {p : Nat}
    {v : Byte} {F G : List Byte → Res ρ} (h : ∀ buf', wr buf p v = .ok buf' → Sim q J (F (put mem0 b buf')) (G buf')) :
    Sim q J (wr (put mem0 b buf) (b + p) v >>= F) (wr buf p v >>= G) := by
  rw [wr_put mem0 b hb]
  cases hw : wr buf p v with
  | ok x => exact h x hw
  | ub => exact ⟨rfl, fun _ h => by cases h⟩
  | abort => exact ⟨rfl, fun _ h => by cases h⟩

theorem sim_wrs {ρ : Type} {q : ρ → ρ} {J : ρ → Prop} {mem0 : List Byte} {b : Nat} (hb : b ≤ mem0.length) {buf : List Byte} {p : Nat}
    {vs : List Byte} {F G : List Byte → Res ρ} (h : ∀ buf', wrs buf p vs = .ok buf' → Sim q J (F (put mem0 b buf')) (G buf')) :
    Sim q J (wrs (put mem0 b buf) (b + p) vs >>= F) (wrs buf p vs >>= G) := by
  rw [wrs_put mem0 b hb]
  cases hw : wrs buf p vs with
  | ok x => exact h x hw
  | ub => exact ⟨rfl, fun _ h => by cases h⟩
  | abort => exact ⟨rfl, fun _ h => by cases h⟩

theorem sim_pure {ρ : Type} {q : ρ → ρ} {J : ρ → Prop} (r : ρ) (h : J r) : Sim q J (pure (q r)) (pure r) :=
  ⟨rfl, fun r' hr => by cases hr; exact h⟩

theorem sim_if {ρ : Type} {q : ρ → ρ} {J : ρ → Prop} {c : Prop} [Decidable c] {x x' y y' : Res ρ} (h1 : Sim q J x y)
    (h2 : Sim q J x' y') : Sim q J (if c then x else x') (if c then y else y') := by
  split <;> assumption

/-! ### base64 -/

/-- What a loop body leaves behind. -/
def After (mem0 : List Byte) (b k : Nat) : Step (List Byte) (List Byte × Nat) → Prop
  | .next buf => Inv mem0 b k buf
  | .stop _ => True

theorem b64_body (mem0 : List Byte) (url : Bool) (a b : Nat) (hba : b ≤ a) (j : Nat) (buf : List Byte) (hI : Inv mem0 b (a + 4*j) buf) :
    Sim (putStep (put mem0 b) (putOut mem0 b)) (After mem0 b (a + 4*(j+1))) (b64Body url a b j (put mem0 b buf))
      (Base64.decBody url (mem0.drop a) j buf) := by
  unfold b64Body Base64.decBody
  rw [rd_put hI a (4*j) (by omega), rd_put hI a (4*j+1) (by omega), rd_put hI a (4*j+2) (by omega), rd_put hI a (4*j+3) (by omega)]
  refine sim_bind _ fun c1 _ => sim_bind _ fun b1 _ => sim_bind _ fun c2 _ => sim_bind _ fun b2 _ => sim_bind _ fun c3 _ =>
    sim_bind _ fun b3 _ => sim_bind _ fun c4 _ => sim_bind _ fun b4 _ => sim_if (sim_pure (Step.stop (buf, 3*j)) trivial) ?_
  refine sim_wr hI.1 fun buf1 h1 => sim_wr hI.1 fun buf2 h2 => sim_wr hI.1 fun buf3 h3 => sim_pure (Step.next buf3) ?_
  have i1 := inv_wr hI h1 (k' := a + 4*(j+1)) (by omega) (by omega)
  have i2 := inv_wr i1 h2 (Nat.le_refl _) (by omega)
  exact inv_wr i2 h3 (Nat.le_refl _) (by omega)

theorem b64_tail (mem0 : List Byte) (url : Bool) (a b n t : Nat) (buf : List Byte) (hI : Inv mem0 b (a + 4*n) buf) :
    Sim (putOut mem0 b) (fun _ => True) (b64Tail url a b n t (put mem0 b buf)) (Base64.decTail url (mem0.drop a) n t buf) := by
  unfold b64Tail Base64.decTail
  rw [rd_put hI a (4*n) (by omega), rd_put hI a (4*n+1) (by omega), rd_put hI a (4*n+2) (by omega)]
  refine sim_if ?_ (sim_if ?_ (sim_pure (buf, 3*n) trivial))
  · refine sim_bind _ fun c1 _ => sim_bind _ fun b1 _ => sim_bind _ fun c2 _ => sim_bind _ fun b2 _ =>
      sim_if (sim_pure (buf, 3*n) trivial) ?_
    exact sim_wr hI.1 fun buf1 h1 => sim_pure (buf1, 3*n+1) trivial
  · refine sim_bind _ fun c1 _ => sim_bind _ fun b1 _ => sim_bind _ fun c2 _ => sim_bind _ fun b2 _ => sim_bind _ fun c3 _ =>
      sim_bind _ fun b3 _ => sim_if (sim_pure (buf, 3*n) trivial) ?_
    exact sim_wr hI.1 fun buf1 h1 => sim_wr hI.1 fun buf2 h2 => sim_pure (buf2, 3*n+2) trivial

/-- From bodies and tails that go in step to functions. -/
theorem whole (mem0 : List Byte) (a b R : Nat) (hba : b ≤ a) (ha : a ≤ mem0.length)
    (f g : Nat → List Byte → Res (Step (List Byte) (List Byte × Nat))) (ft gt : List Byte → Res (List Byte × Nat)) (n : Nat)
    (hbody : ∀ j buf, Inv mem0 b (a + R*j) buf →
      Sim (putStep (put mem0 b) (putOut mem0 b)) (After mem0 b (a + R*(j+1))) (f j (put mem0 b buf)) (g j buf))
    (htail : ∀ buf, Inv mem0 b (a + R*n) buf → Sim (putOut mem0 b) (fun _ => True) (ft (put mem0 b buf)) (gt buf)) :
    (do match ← forLoopB f 0 n mem0 with | .stop r => pure r | .next m => ft m) =
      ((do match ← forLoopB g 0 n (mem0.drop b) with | .stop r => pure r | .next m => gt m) >>=
        fun r => (pure (putOut mem0 b r) : Res (List Byte × Nat))) := by
  obtain ⟨h1, h2⟩ := loop_put f g (put mem0 b) (putOut mem0 b) (fun j buf => Inv mem0 b (a + R*j) buf)
    (fun j s hs => ⟨(hbody j s hs).1, fun s' h => (hbody j s hs).2 _ h⟩) n 0 (mem0.drop b) (inv_start mem0 b _ (by omega))
  rw [put_start] at h1
  rw [h1]
  cases hg : forLoopB g 0 n (mem0.drop b) with
  | ub => rfl
  | abort => rfl
  | ok r =>
    cases r with
    | stop r => rfl
    | next m =>
      have := h2 m hg
      rw [Nat.zero_add] at this
      exact (htail m this).1

theorem fromBase64Impl_put (mem0 : List Byte) (a n b : Nat) (url : Bool) (hba : b ≤ a) (ha : a ≤ mem0.length) :
    fromBase64Impl mem0 a n b url =
      (Base64.fromBase64Impl (mem0.drop a) n (mem0.drop b) url >>= fun r => pure (putOut mem0 b r)) :=
  whole mem0 a b 4 hba ha _ _ _ _ _ (b64_body mem0 url a b hba) (fun buf h => b64_tail mem0 url a b _ _ buf h)

/-! ### base32 -/

theorem decAt_put {mem0 b k buf} (h : Inv mem0 b k buf) (cs raw : Bool) (a i : Nat) (hi : k ≤ a + i) :
    decAt cs raw (put mem0 b buf) a i = Base32.decAt cs raw (mem0.drop a) i := by
  rw [decAt, Base32.decAt, rd_put h a i hi]

theorem b32_body (mem0 : List Byte) (cs raw : Bool) (a b : Nat) (hba : b ≤ a) (i : Nat) (buf : List Byte)
    (hI : Inv mem0 b (a + 8*i) buf) :
    Sim (putStep (put mem0 b) (putOut mem0 b)) (After mem0 b (a + 8*(i+1))) (b32Body cs raw a b i (put mem0 b buf))
      (Base32.decBody cs raw (mem0.drop a) i buf) := by
  unfold b32Body Base32.decBody
  rw [decAt_put hI cs raw a (i*8) (by omega), decAt_put hI cs raw a (i*8+1) (by omega), decAt_put hI cs raw a (i*8+2) (by omega),
    decAt_put hI cs raw a (i*8+3) (by omega), decAt_put hI cs raw a (i*8+4) (by omega), decAt_put hI cs raw a (i*8+5) (by omega),
    decAt_put hI cs raw a (i*8+6) (by omega), decAt_put hI cs raw a (i*8+7) (by omega)]
  refine sim_bind _ fun b1 _ => sim_bind _ fun b2 _ => sim_bind _ fun b3 _ => sim_bind _ fun b4 _ => sim_bind _ fun b5 _ =>
    sim_bind _ fun b6 _ => sim_bind _ fun b7 _ => sim_bind _ fun b8 _ => sim_if (sim_pure (Step.stop (buf, 5*i)) trivial) ?_
  refine sim_wrs hI.1 fun buf1 h1 => sim_pure (Step.next buf1) ?_
  exact inv_wrs _ hI h1 (by omega) (by simp only [List.length_cons, List.length_nil]; omega)

theorem b32_tail (mem0 : List Byte) (cs raw : Bool) (a b n t : Nat) (hba : b ≤ a) (buf : List Byte) (hI : Inv mem0 b (a + 8*n) buf) :
    Sim (putOut mem0 b) (fun _ => True) (b32Tail cs raw a b n t (put mem0 b buf)) (Base32.decTail cs raw (mem0.drop a) n t buf) := by
  unfold b32Tail Base32.decTail
  refine sim_bind _ fun tb _ => sim_if ?_ (sim_pure (buf, 5*n) trivial)
  rw [decAt_put hI cs raw a (n*8) (by omega), decAt_put hI cs raw a (n*8+1) (by omega)]
  refine sim_bind _ fun b1 _ => sim_bind _ fun b2 _ => sim_wr hI.1 fun buf1 h1 => sim_if ?_ (sim_pure (buf1, 5*n+1) trivial)
  have i1 := inv_wr hI h1 (k' := a + (n*8+2)) (by omega) (by omega)
  rw [decAt_put i1 cs raw a (n*8+2) (by omega), decAt_put i1 cs raw a (n*8+3) (by omega)]
  refine sim_bind _ fun b3 _ => sim_bind _ fun b4 _ => sim_wr hI.1 fun buf2 h2 => sim_if ?_ (sim_pure (buf2, 5*n+2) trivial)
  have i2 := inv_wr i1 h2 (k' := a + (n*8+4)) (by omega) (by omega)
  rw [decAt_put i2 cs raw a (n*8+4) (by omega)]
  refine sim_bind _ fun b5 _ => sim_wr hI.1 fun buf3 h3 => sim_if ?_ (sim_pure (buf3, 5*n+3) trivial)
  have i3 := inv_wr i2 h3 (k' := a + (n*8+5)) (by omega) (by omega)
  rw [decAt_put i3 cs raw a (n*8+5) (by omega), decAt_put i3 cs raw a (n*8+6) (by omega)]
  exact sim_bind _ fun b6 _ => sim_bind _ fun b7 _ => sim_wr hI.1 fun buf4 h4 => sim_pure (buf4, 5*n+4) trivial

theorem fromBase32Impl_put (cs : Bool) (mem0 : List Byte) (a n b : Nat) (raw : Bool) (hba : b ≤ a) (ha : a ≤ mem0.length) :
    fromBase32Impl cs mem0 a n b raw =
      (Base32.fromBase32Impl cs (mem0.drop a) n (mem0.drop b) raw >>= fun r => pure (putOut mem0 b r)) := by
  unfold fromBase32Impl Base32.fromBase32Impl
  cases Base32.strlen (mem0.drop a) n with
  | ub => rfl
  | abort => rfl
  | ok m =>
    exact whole mem0 a b 8 hba ha _ _ _ _ _ (b32_body mem0 cs raw a b hba) (fun buf h => b32_tail mem0 cs raw a b _ _ hba buf h)

end InPlace
