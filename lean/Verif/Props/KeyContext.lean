import Verif.Model.KeyContext
import Verif.Props.Random
import Verif.Props.Der
/-! Property theorems C56 (key generation), C57 (contexts) and C64 (calls outside init/uninit): `src/btc/key.c`. -/
open KeyContext Random SecpLib Secp256k1 WordSpec

/-! ## C56 -/

/-- C56. Whenever `fingera_btc_key_new` returns, the 32 bytes are a valid secret key, whatever the operating system delivered and
however it split it, and nothing else was written. -/
theorem C56_key_new_valid (opens : Bool) (fuel : Nat) (replies rest : List Reply) (key out : List Byte) (hk : 32 ≤ key.length)
    (h : keyNew opens fuel replies key = .ok (some (out, rest))) :
    ValidKey (out.take 32) ∧ out.length = key.length ∧ out.drop 32 = key.drop 32 := by
  induction fuel generalizing replies key with
  | zero => cases h
  | succ fuel ih =>
    rw [keyNew] at h
    cases hr : osRandBytes ⟨opens, replies⟩ key 32 with
    | ub => rw [hr] at h; cases h
    | abort => rw [hr] at h; cases h
    | ok r =>
      rw [hr, Res.ok_bind] at h
      cases r with
      | none => cases h
      | some kr =>
        obtain ⟨k, rs⟩ := kr
        simp only at h
        obtain ⟨ho, hl, -⟩ := C58_returns_only_after_delivery _ _ _ _ _ hk hr
        have ht : k.drop 32 = key.drop 32 := by
          replace ho : opens = true := ho
          subst ho
          exact readLoop_tail replies key 32 32 k rs (le_refl _) hk hr
        rw [seckeyVerify, get32, if_pos (by omega), List.drop_zero, Res.ok_bind] at h
        by_cases hv : 0 < beNat (k.take 32) ∧ beNat (k.take 32) < n
        · rw [Res.pure_eq, Res.ok_bind, decide_eq_true hv, if_pos rfl, Res.pure_eq, Res.ok.injEq, Option.some.injEq, Prod.mk.injEq] at h
          rw [← h.1]
          exact ⟨⟨by rw [List.length_take]; omega, hv⟩, hl, ht⟩
        · rw [Res.pure_eq, Res.ok_bind, decide_eq_false hv, if_neg (by simp)] at h
          obtain ⟨i1, i2, i3⟩ := ih rs k (by omega) h
          exact ⟨i1, by omega, by rw [i3, ht]⟩

/-- C56 (which key). If every `read` delivers the 32 bytes asked for, the key is the first delivery that is a valid key: the invalid ones
before it are thrown away, nothing is reduced or mixed. -/
theorem C56_first_valid (fuel : Nat) (bad : List (List Byte)) (good : List Byte) (rs : List Reply) (key : List Byte)
    (hk : 32 ≤ key.length) (hbad : ∀ b ∈ bad, b.length = 32 ∧ ¬ ValidKey b) (hgood : ValidKey good) (hf : bad.length < fuel) :
    keyNew true fuel (bad.map .bytes ++ .bytes good :: rs) key = .ok (some (good ++ key.drop 32, rs)) := by
  have verify : ∀ b post : List Byte, b.length = 32 → seckeyVerify (b ++ post) = .ok (decide (0 < beNat b ∧ beNat b < n)) := by
    intro b post hb
    rw [seckeyVerify, get32, if_pos (by rw [List.length_append]; omega), List.drop_zero, List.take_left' hb, Res.ok_bind]; rfl
  induction bad generalizing fuel key with
  | nil =>
    obtain ⟨f, rfl⟩ : ∃ f, fuel = f + 1 := ⟨fuel - 1, by simp at hf; omega⟩
    have h1 := hgood.1
    rw [List.map_nil, List.nil_append, keyNew, C58_full_read_partial key good 32 rs (by omega) hk (by omega), Res.ok_bind]
    simp only []
    rw [List.take_of_length_le (by omega), verify good _ h1, Res.ok_bind, decide_eq_true hgood.2]
    rfl
  | cons b bad ih =>
    obtain ⟨f, rfl⟩ : ∃ f, fuel = f + 1 := ⟨fuel - 1, by simp at hf; omega⟩
    obtain ⟨h1, h2⟩ := hbad b List.mem_cons_self
    rw [List.map_cons, List.cons_append, keyNew, C58_full_read_partial key b 32 _ (by omega) hk (by omega), Res.ok_bind]
    simp only []
    rw [List.take_of_length_le (l := b) (by omega), verify b _ h1, Res.ok_bind, decide_eq_false (fun h => h2 ⟨h1, h⟩), if_neg (by simp),
      ih f (b ++ key.drop 32) (by rw [List.length_append]; omega) (fun b' hb' => hbad b' (List.mem_cons_of_mem _ hb'))
        (by simp at hf; omega), List.drop_left' h1]

/-- A case: the first delivery (all ones, above the group order) is thrown away. -/
example : keyNew true 5 [.bytes (List.replicate 32 0xFF#8), .bytes (List.replicate 32 7#8), .error] (List.replicate 34 0xAA#8) =
    .ok (some (List.replicate 32 7#8 ++ [0xAA#8, 0xAA#8], [.error])) := by decide +kernel

/-! ## C57 -/

/-- Which histories are proper: init and uninit in turn, starting with init, everything else in between.  The flag says
whether the library is initialised. -/
def Proper : Bool → List Call → Prop
  | _, [] => True
  | false, .init _ :: cs => Proper true cs
  | true, .uninit :: cs => Proper false cs
  | true, .op _ :: cs => Proper true cs
  | _, _ => False

/-- The initialisation flag after a history: that of the last init or uninit. -/
def upAfter : Bool → List Call → Bool
  | b, [] => b
  | _, .init _ :: cs => upAfter true cs
  | _, .uninit :: cs => upAfter false cs
  | b, .op _ :: cs => upAfter b cs

/-- The operating system lets each init finish. -/
def OsReturns (cs : List Call) : Prop :=
  ∀ os, Call.init os ∈ cs → ∃ r, osRandBytes os (List.replicate 32 0xAA#8) 32 = .ok (some r)

/-- Everything allocated is in use by the module: both pointers are valid and distinct and there is no further context, or both are
NULL and there is no context at all. -/
def Clean (up : Bool) (s : State) : Prop :=
  if up then ∃ a b, a ≠ b ∧ s.sign = some a ∧ s.verify = some b ∧ s.live = [(a, .sign), (b, .verify)]
  else s.sign = none ∧ s.verify = none ∧ s.live = []

/-- The states the module can be in without misuse: uninitialised, or with its two contexts. -/
def down (c : Nat) : State := ⟨none, none, [], c⟩
def up (c : Nat) : State := ⟨some (c+1), some c, [(c+1, .sign), (c, .verify)], c+2⟩

theorem init_down (nd : Bool) (os : Os) (c : Nat) (r) (h : osRandBytes os (List.replicate 32 0xAA#8) 32 = .ok (some r)) :
    init nd os (down c) = .ok (some (up c)) := by
  have ha : assertNd nd true = .ok () := by cases nd <;> rfl
  rw [init, down]
  simp only [create, Option.isNone_none, ha, Res.ok_bind, h]
  simp [libCall, up]

theorem init_up (os : Os) (c : Nat) : init false os (up c) = .abort := by
  rw [init, up]; rfl

theorem uninit_up (nd : Bool) (c : Nat) : uninit nd (up c) = .ok (down (c+2)) := by
  have ha : assertNd nd true = .ok () := by cases nd <;> rfl
  rw [uninit, up]
  simp only [Option.isSome_some, ha, Res.ok_bind]
  simp [destroy, down, ha]

theorem uninit_down (c : Nat) : uninit false (down c) = .abort := rfl

theorem op_up (c : Nat) (o : Op) : libCalls (up c) (calls o) = .ok () := by
  cases o <;> simp [calls, libCalls, libCall, up]

theorem op_down (c : Nat) (o : Op) : libCalls (down c) (calls o) = .ub := by
  cases o <;> rfl

theorem clean_down (c : Nat) : Clean false (down c) := ⟨rfl, rfl, rfl⟩
theorem clean_up (c : Nat) : Clean true (up c) := ⟨c+1, c, by omega, rfl, rfl, rfl⟩

/-- The state with the given flag. -/
def st (b : Bool) (c : Nat) : State := if b then up c else down c

theorem run_proper (nd : Bool) (cs : List Call) (b : Bool) (c : Nat) (hos : OsReturns cs) (hp : Proper b cs) :
    ∃ c', run nd cs (st b c) = .ok (some (st (upAfter b cs) c')) := by
  induction cs generalizing b c with
  | nil => exact ⟨c, rfl⟩
  | cons call cs ih =>
    have hos' : OsReturns cs := fun os h => hos os (List.mem_cons_of_mem _ h)
    cases call with
    | init os =>
      cases b with
      | true => exact hp.elim
      | false =>
        obtain ⟨r, hr⟩ := hos os List.mem_cons_self
        obtain ⟨c', h⟩ := ih true c hos' hp
        refine ⟨c', ?_⟩
        rw [run, st, if_neg (by simp), init_down nd os c r hr, Res.ok_bind]
        exact h
    | uninit =>
      cases b with
      | false => exact hp.elim
      | true =>
        obtain ⟨c', h⟩ := ih false (c+2) hos' hp
        refine ⟨c', ?_⟩
        rw [run, st, if_pos rfl, uninit_up, Res.ok_bind]
        exact h
    | op o =>
      cases b with
      | false => exact hp.elim
      | true =>
        obtain ⟨c', h⟩ := ih true c hos' hp
        refine ⟨c', ?_⟩
        rw [run, st, if_pos rfl, op_up, Res.ok_bind]
        exact h

/-- Calls of init and uninit only. -/
def NoOps (cs : List Call) : Prop := ∀ o, Call.op o ∉ cs

theorem run_improper (cs : List Call) (b : Bool) (c : Nat) (hos : OsReturns cs) (hp : ¬ Proper b cs) :
    run false cs (st b c) = .abort ∨ (run false cs (st b c) = .ub ∧ ¬ NoOps cs) := by
  induction cs generalizing b c with
  | nil => exact (hp trivial).elim
  | cons call cs ih =>
    have hos' : OsReturns cs := fun os h => hos os (List.mem_cons_of_mem _ h)
    have lift : ∀ {s}, (run false cs s = .abort ∨ (run false cs s = .ub ∧ ¬ NoOps cs)) →
        (run false cs s = .abort ∨ (run false cs s = .ub ∧ ¬ NoOps (call :: cs))) := by
      rintro s (h | ⟨h1, h2⟩)
      · exact .inl h
      · exact .inr ⟨h1, fun h => h2 fun o ho => h o (List.mem_cons_of_mem _ ho)⟩
    cases call with
    | init os =>
      cases b with
      | true => left; rw [run, st, if_pos rfl, init_up]; rfl
      | false =>
        obtain ⟨r, hr⟩ := hos os List.mem_cons_self
        rw [run, st, if_neg (by simp), init_down false os c r hr, Res.ok_bind]
        exact lift (ih true c hos' hp)
    | uninit =>
      cases b with
      | true =>
        rw [run, st, if_pos rfl, uninit_up, Res.ok_bind]
        exact lift (ih false (c+2) hos' hp)
      | false => left; rw [run, st, if_neg (by simp), uninit_down]; rfl
    | op o =>
      cases b with
      | true =>
        rw [run, st, if_pos rfl, op_up, Res.ok_bind]
        exact lift (ih true c hos' hp)
      | false =>
        right
        rw [run, st, if_neg (by simp), op_down]
        exact ⟨rfl, fun h => h o List.mem_cons_self⟩

/-- C57. For every history of init and uninit calls (the operating system being able to deliver), with assertions compiled in: no
assertion fails iff the calls alternate starting with init, and otherwise one does. -/
theorem C57_assertions (cs : List Call) (hos : OsReturns cs) (hn : NoOps cs) :
    (Proper false cs → ∃ s, run false cs start = .ok (some s)) ∧ (¬ Proper false cs → run false cs start = .abort) := by
  constructor
  · intro hp
    obtain ⟨c', h⟩ := run_proper false cs false 0 hos hp
    exact ⟨_, h⟩
  · intro hp
    rcases run_improper cs false 0 hos hp with h | ⟨-, h⟩
    · exact h
    · exact (h hn).elim

/-- C57 (no leak). After every proper history (with or without assertions) both contexts are live and nothing else is, if the last call
of the two was init, and nothing is allocated if it was uninit; at no point is anything freed that is not allocated. -/
theorem C57_clean (nd : Bool) (cs : List Call) (hos : OsReturns cs) (hp : Proper false cs) :
    ∃ s, run nd cs start = .ok (some s) ∧ Clean (upAfter false cs) s := by
  obtain ⟨c', h⟩ := run_proper nd cs false 0 hos hp
  refine ⟨_, h, ?_⟩
  cases upAfter false cs
  · exact clean_down c'
  · exact clean_up c'

/-- What is invariant however the functions are called. -/
def Safe (s : State) : Prop :=
  (s.live.map (·.1)).Nodup ∧ (∀ p ∈ s.live, p.1 < s.created) ∧ (∀ a, s.sign = some a → (a, Kind.sign) ∈ s.live) ∧
    ∀ b, s.verify = some b → (b, Kind.verify) ∈ s.live

theorem safe_distinct {s : State} (h : Safe s) {a b : Nat} (ha : s.sign = some a) (hb : s.verify = some b) : a ≠ b := by
  rintro rfl
  have := List.inj_on_of_nodup_map h.1 (h.2.2.1 a ha) (h.2.2.2 a hb) rfl
  cases this

theorem safe_init (os : Os) (s s' : State) (h : Safe s) (hr : init true os s = .ok (some s')) : Safe s' := by
  obtain ⟨h1, h2, h3, h4⟩ := h
  rw [init] at hr
  simp only [create, assertNd, if_true, Res.ok_bind] at hr
  cases ho : osRandBytes os (List.replicate 32 0xAA#8) 32 with
  | ub => rw [ho] at hr; cases hr
  | abort => rw [ho] at hr; cases hr
  | ok r =>
    rw [ho, Res.ok_bind] at hr
    cases r with
    | none => cases hr
    | some r =>
      simp only [libCall, List.find?_cons, decide_true] at hr
      simp only [or_true, if_true, Res.ok_bind, Res.pure_eq, Res.ok.injEq, Option.some.injEq] at hr
      subst hr
      refine ⟨?_, ?_, ?_, ?_⟩
      · simp only [List.map_cons, List.nodup_cons, List.mem_cons, List.mem_map, not_or]
        refine ⟨⟨by omega, ?_⟩, ?_, h1⟩
        · rintro ⟨p, hp, he⟩; have := h2 p hp; omega
        · rintro ⟨p, hp, he⟩; have := h2 p hp; omega
      · intro p hp
        rcases List.mem_cons.1 hp with rfl | hp
        · simp
        rcases List.mem_cons.1 hp with rfl | hp
        · simp
        have := h2 p hp
        simp; omega
      · intro a ha
        simp only [Option.some.injEq] at ha
        subst ha; exact List.mem_cons_self
      · intro b hb
        simp only [Option.some.injEq] at hb
        subst hb; exact List.mem_cons_of_mem _ List.mem_cons_self

theorem safe_uninit (s : State) (h : Safe s) : ∃ s', uninit true s = .ok s' ∧ Safe s' := by
  have hd := @safe_distinct s h
  obtain ⟨h1, h2, h3, h4⟩ := h
  obtain ⟨sg, vf, lv, cr⟩ := s
  simp only at *
  have filt : ∀ (l : List (Nat × Kind)) (a : Nat), (l.map (·.1)).Nodup → ((l.filter (·.1 ≠ a)).map (·.1)).Nodup := by
    intro l a hl
    exact List.Nodup.sublist (List.Sublist.map _ List.filter_sublist) hl
  rw [uninit]
  simp only [assertNd, if_true, Res.ok_bind]
  cases sg with
  | none =>
    simp only [destroy, Res.ok_bind]
    cases vf with
    | none => exact ⟨_, rfl, h1, h2, by simp, by simp⟩
    | some b =>
      have hb := h4 b rfl
      simp only []
      rw [if_pos (List.mem_map.2 ⟨_, hb, rfl⟩)]
      exact ⟨_, rfl, filt _ _ h1, fun p hp => h2 p (List.mem_of_mem_filter hp), by simp, by simp⟩
  | some a =>
    have ha := h3 a rfl
    simp only [destroy]
    rw [if_pos (List.mem_map.2 ⟨_, ha, rfl⟩), Res.ok_bind]
    cases vf with
    | none => exact ⟨_, rfl, filt _ _ h1, fun p hp => h2 p (List.mem_of_mem_filter hp), by simp, by simp⟩
    | some b =>
      have hb := h4 b rfl
      have hab := hd rfl rfl
      simp only []
      rw [if_pos (List.mem_map.2 ⟨(b, .verify), List.mem_filter.2 ⟨hb, by simpa using fun e => hab e.symm⟩, rfl⟩)]
      exact ⟨_, rfl, filt _ _ (filt _ _ h1), fun p hp => h2 p (List.mem_of_mem_filter (List.mem_of_mem_filter hp)), by simp, by simp⟩

/-- C57 (`NDEBUG`). Without assertions no history of init and uninit calls, however improper, frees a context twice or frees what was
never allocated, and no assertion can fail. -/
theorem C57_ndebug_no_double_free (cs : List Call) (hos : OsReturns cs) (hn : NoOps cs) :
    ∃ s, run true cs start = .ok (some s) := by
  suffices h : ∀ s, Safe s → ∃ s', run true cs s = .ok (some s') from
    h start ⟨by simp [start], by simp [start], by simp [start], by simp [start]⟩
  induction cs with
  | nil => exact fun s _ => ⟨s, rfl⟩
  | cons call cs ih =>
    intro s hs
    have ih' := ih (fun os h => hos os (List.mem_cons_of_mem _ h)) (fun o ho => hn o (List.mem_cons_of_mem _ ho))
    cases call with
    | init os =>
      obtain ⟨r, hr⟩ := hos os List.mem_cons_self
      have hi : ∃ s', init true os s = .ok (some s') := by
        rw [init]
        simp only [create, assertNd, if_true, Res.ok_bind, hr]
        simp [libCall]
      obtain ⟨s', hi⟩ := hi
      obtain ⟨s'', h⟩ := ih' s' (safe_init os s s' hs hi)
      exact ⟨s'', by rw [run, hi, Res.ok_bind]; exact h⟩
    | uninit =>
      obtain ⟨s', hu, hs'⟩ := safe_uninit s hs
      obtain ⟨s'', h⟩ := ih' s' hs'
      exact ⟨s'', by rw [run, hu, Res.ok_bind]; exact h⟩
    | op o => exact (hn o List.mem_cons_self).elim

/-- An operating system that delivers. -/
def goodOs : Os := ⟨true, [.bytes (List.replicate 32 9#8)]⟩

/-- C57 (`NDEBUG`). Without assertions an improper history does leak: after init, init, uninit two contexts are left that nothing points
to. -/
theorem C57_ndebug_leak : run true [.init goodOs, .init goodOs, .uninit] start =
    .ok (some ⟨none, none, [(1, .sign), (0, .verify)], 4⟩) := by decide +kernel

/-- The hypotheses are met by a history with two sessions. -/
example : Proper false [.init goodOs, .uninit, .init goodOs, .op .keySign] ∧
    OsReturns [.init goodOs, .uninit, .init goodOs, .op .keySign] := by
  refine ⟨trivial, ?_⟩
  intro os h
  simp at h
  subst h
  exact ⟨_, C58_full_read_partial _ (List.replicate 32 9#8) 32 [] (by omega) (by simp) (by simp)⟩

/-! ## C64 -/

/-- C64. Between init and uninit every call of every exported function finds, for each of its library calls, a live context with the
capability that call needs; outside, every one of them is undefined behaviour (a NULL context), with or without assertions. -/
theorem C64_calls (nd : Bool) (cs : List Call) (o : Op) (hos : OsReturns cs) (hp : Proper false cs) :
    ∃ s, run nd cs start = .ok (some s) ∧ libCalls s (calls o) = if upAfter false cs then .ok () else .ub := by
  obtain ⟨c', h⟩ := run_proper nd cs false 0 hos hp
  refine ⟨_, h, ?_⟩
  cases upAfter false cs
  · exact op_down c' o
  · exact op_up c' o
