import Verif.Model.Threads
import Verif.Props.KeyContext
/-! Property theorems C77: the key functions run by several threads. -/
open KeyContext Threads Random SecpLib

namespace Threads

/-- Two accesses of different threads to the same place, at least one of them a write. (Nothing orders the threads: that is a data
race.) -/
def Race (log : List Access) : Prop :=
  ∃ a ∈ log, ∃ b ∈ log, a.thread ≠ b.thread ∧ a.loc = b.loc ∧ (a.write = true ∨ b.write = true)

instance (log : List Access) : Decidable (Race log) := by unfold Race; infer_instance

/-- A thread that makes the given calls one after the other. -/
def caller (ops : List Op) : Thread := ⟨ops.flatMap opProg, none⟩

/-- A pointer that is live, and whose context has the capability that is asked for. -/
def Ready (s : State) (reg : Option Nat) (need : Option Kind) : Prop := libCall reg need s = .ok ()

/-- Programs of the form `load p; enter need; leave; …` with fitting capabilities, from any point on. -/
inductive Fit (s : State) : Option Nat → List Instr → Prop
  | nil (reg) : Fit s reg []
  | load (reg p rest) (h : Fit s (pointer s p) rest) : Fit s reg (.load p :: rest)
  | enter (reg need rest) (h0 : libCall reg need s = .ok ()) (h : Fit s reg rest) : Fit s reg (.enter need :: rest)
  | leave (reg rest) (h0 : libCall reg none s = .ok ()) (h : Fit s reg rest) : Fit s reg (.leave :: rest)

theorem libCall_pointer (s : State) (p : Kind) (need : Option Kind)
    (h : libCall (pointer s p) need s = .ok ()) : libCall (pointer s p) none s = .ok () := by
  unfold libCall at h ⊢
  cases hq : pointer s p with
  | none => rw [hq] at h; cases h
  | some id =>
    rw [hq] at h
    simp only at h ⊢
    cases hf : s.live.find? (·.1 = id) with
    | none => rw [hf] at h; cases h
    | some x => rfl

theorem fit_calls (s : State) (reg : Option Nat) (cs : List (Kind × Option Kind)) (rest : List Instr) (h : libCalls s cs = .ok ())
    (hrest : ∀ reg, Fit s reg rest) : Fit s reg (cs.flatMap (fun c => [.load c.1, .enter c.2, .leave]) ++ rest) := by
  induction cs generalizing reg with
  | nil => exact hrest reg
  | cons c cs ih =>
    obtain ⟨p, need⟩ := c
    have he : libCalls s ((p, need) :: cs) = (do libCall (pointer s p) need s; libCalls s cs) := by cases p <;> rfl
    rw [he] at h
    cases h1 : libCall (pointer s p) need s with
    | ub => rw [h1] at h; cases h
    | abort => rw [h1] at h; cases h
    | ok u =>
      rw [h1, Res.ok_bind] at h
      exact .load _ _ _ (.enter _ _ _ h1 (.leave _ _ (libCall_pointer s p need h1) (ih _ h)))

theorem fit_caller (s : State) (ops : List Op) (h : ∀ o, libCalls s (calls o) = .ok ()) (reg : Option Nat) :
    Fit s reg (ops.flatMap opProg) := by
  induction ops generalizing reg with
  | nil => exact .nil reg
  | cons o ops ih =>
    rw [List.flatMap_cons]
    exact fit_calls s reg (calls o) _ (h o) ih

/-- One step of a fitting thread. -/
theorem fit_step (nd : Bool) (s : State) (reg : Option Nat) (i : Instr) (rest : List Instr) (h : Fit s reg (i :: rest)) (t : Nat) :
    ∃ reg', step nd s reg i = .ok (s, reg') ∧ Fit s reg' rest ∧ ∀ a ∈ accesses t reg i, a.write = false := by
  cases h with
  | load _ p _ h => exact ⟨_, rfl, h, by simp [accesses]⟩
  | enter _ need _ h0 h =>
    refine ⟨reg, ?_, h, ?_⟩
    · rw [step, h0]; rfl
    · cases reg <;> simp [accesses]
  | leave _ _ h0 h =>
    refine ⟨reg, ?_, h, ?_⟩
    · rw [step, h0]; rfl
    · cases reg <;> simp [accesses]

/-- What a thread has left after its share of a schedule. -/
theorem runThreads_fit (nd : Bool) (sched : List Nat) (ts : List Thread) (s : State) (h : ∀ th ∈ ts, Fit s th.reg th.prog) :
    ∃ ts' log, runThreads nd sched ts s = .ok (ts', s, log) ∧ ts'.length = ts.length ∧ (∀ a ∈ log, a.write = false) ∧
      (∀ th ∈ ts', Fit s th.reg th.prog) ∧
      ∀ t : Nat, ts'[t]?.map Thread.prog = ts[t]?.map fun th : Thread => th.prog.drop (sched.count t) := by
  induction sched generalizing ts with
  | nil => exact ⟨ts, [], rfl, rfl, by simp, h, by intro t; simp⟩
  | cons t more ih =>
    rw [runThreads, sched1]
    cases ht : ts[t]? with
    | none =>
      obtain ⟨ts', log, h1, h2, h3, h4, h5⟩ := ih ts h
      refine ⟨ts', log, ?_, h2, h3, h4, ?_⟩
      · simp only [Res.ok_bind, h1, List.nil_append]; rfl
      · intro u
        rw [h5 u]
        by_cases hu : t = u
        · rw [← hu, ht]; rfl
        · rw [List.count_cons_of_ne hu]
    | some th =>
      have hmem := List.mem_of_getElem? ht
      have hlt := (List.getElem?_eq_some_iff.mp ht).1
      cases hp : th.prog with
      | nil =>
        simp only [hp]
        obtain ⟨ts', log, h1, h2, h3, h4, h5⟩ := ih ts h
        refine ⟨ts', log, ?_, h2, h3, h4, ?_⟩
        · simp only [Res.ok_bind, h1, List.nil_append]; rfl
        · intro u
          rw [h5 u]
          by_cases hu : t = u
          · rw [← hu, ht]; simp [hp]
          · rw [List.count_cons_of_ne hu]
      | cons i rest =>
        simp only [hp]
        have hf := h th hmem
        rw [hp] at hf
        obtain ⟨reg', e1, e2, e3⟩ := fit_step nd s th.reg i rest hf t
        obtain ⟨ts', log, h1, h2, h3, h4, h5⟩ := ih (ts.set t ⟨rest, reg'⟩) (by
          intro x hx
          rcases List.mem_or_eq_of_mem_set hx with hx | rfl
          · exact h x hx
          · exact e2)
        refine ⟨ts', accesses t th.reg i ++ log, ?_, by rw [h2, List.length_set], ?_, h4, ?_⟩
        · simp only [e1, Res.ok_bind, Res.pure_eq, h1]
        · intro a ha
          rcases List.mem_append.mp ha with ha | ha
          · exact e3 a ha
          · exact h3 a ha
        · intro u
          rw [h5 u]
          by_cases hu : t = u
          · subst hu
            rw [List.getElem?_set_self hlt, ht, List.count_cons_self]
            simp [hp]
          · rw [List.getElem?_set_ne hu, List.count_cons_of_ne hu]

theorem runThreads_append (nd : Bool) (a b : List Nat) (ts : List Thread) (s : State) :
    runThreads nd (a ++ b) ts s = (do
      let r ← runThreads nd a ts s
      let q ← runThreads nd b r.1 r.2.1
      pure (q.1, q.2.1, r.2.2 ++ q.2.2)) := by
  induction a generalizing ts s with
  | nil =>
    rw [List.nil_append, runThreads, Res.ok_bind]
    cases runThreads nd b ts s <;> rfl
  | cons t a ih =>
    rw [List.cons_append, runThreads, runThreads]
    cases sched1 nd t ts s with
    | ub => rfl
    | abort => rfl
    | ok r =>
      simp only [Res.ok_bind, ih]
      cases runThreads nd a r.1 r.2.1 with
      | ub => rfl
      | abort => rfl
      | ok r2 =>
        simp only [Res.ok_bind, Res.pure_eq]
        cases runThreads nd b r2.1 r2.2.1 with
        | ub => rfl
        | abort => rfl
        | ok r3 => simp

theorem uninit_steps (nd : Bool) (c : Nat) (th : Thread) :
    ∃ log, runThreads nd [1, 1, 1, 1, 1, 1, 1, 1] [th, ⟨uninitProg, none⟩] (up c) = .ok ([th, ⟨[], some c⟩], down (c + 2), log) := by
  cases nd <;> exact ⟨_, by
    simp [runThreads, sched1, uninitProg, step, pointer, up, down, assertNd, assertC, setPointer, destroy]; rfl⟩

/-- Running one thread alone is running the function. -/
def alone (nd : Bool) : List Instr → State → Option Nat → Res State
  | [], s, _ => .ok s
  | i :: rest, s, reg => do
    let (s, reg) ← step nd s reg i
    alone nd rest s reg

end Threads

/-- C77 (the model of threads agrees with the functions). A single thread that runs through the steps of init, uninit or of any other
function has the effect of the function of `Verif.Model.KeyContext`. -/
theorem C77_alone (nd : Bool) (s : State) (reg : Option Nat) (os : Os) (r) (hos : osRandBytes os (List.replicate 32 0xAA#8) 32 = .ok (some r))
    (o : Op) :
    init nd os s = (do let s ← alone nd initProg s reg; pure (some s)) ∧ uninit nd s = alone nd uninitProg s reg ∧
    (libCalls s (calls o) = .ok () → alone nd (opProg o) s reg = .ok s) ∧
    (s.sign = none ∧ s.verify = none → alone nd (opProg o) s reg = .ub) := by
  refine ⟨?_, ?_, ?_, ?_⟩
  · obtain ⟨sg, vf, lv, cr⟩ := s
    rw [init]
    simp only [hos]
    cases nd <;> cases sg <;> cases vf <;>
      simp [initProg, alone, step, assertNd, assertC, pointer, setPointer, create, libCall]
  · obtain ⟨sg, vf, lv, cr⟩ := s
    cases nd <;> cases sg <;> cases vf <;>
      simp [uninit, uninitProg, alone, step, assertNd, assertC, pointer, setPointer, destroy] <;> (repeat' split) <;> simp_all <;> (split <;> rfl)
  · intro h
    have : ∀ (prog : List Instr) (reg : Option Nat), Fit s reg prog → alone nd prog s reg = .ok s := by
      intro prog
      induction prog with
      | nil => intro reg _; rfl
      | cons i rest ih =>
        intro reg hf
        obtain ⟨reg', e1, e2, -⟩ := fit_step nd s reg i rest hf 0
        rw [alone, e1, Res.ok_bind]
        exact ih reg' e2
    refine this _ _ ?_
    have := fit_calls s reg (calls o) [] h (fun reg => .nil reg)
    rwa [List.append_nil] at this
  · rintro ⟨h1, h2⟩
    cases o <;> simp [opProg, calls, alone, step, pointer, h1, h2, libCall]

/-- C77. After every proper history of calls that leaves the library initialised, any number of threads may call any of the other
functions, each as often as it likes, interleaved in any way: every library call gets a live context with the capability it needs from
beginning to end (no undefined behaviour, no failed assertion), no thread writes shared memory, so there is no data race, the shared
state stays as it is, and every thread has made exactly the steps the schedule gave it (no thread waits for another). -/
theorem C77_threads_safe (nd : Bool) (cs : List Call) (hos : OsReturns cs) (hp : Proper false cs) (hup : upAfter false cs = true)
    (threads : List (List Op)) (sched : List Nat) :
    ∃ s ts log, run nd cs start = .ok (some s) ∧ runThreads nd sched (threads.map caller) s = .ok (ts, s, log) ∧
      (∀ a ∈ log, a.write = false) ∧ ¬ Race log ∧
      ∀ t : Nat, ts[t]?.map Thread.prog = threads[t]?.map fun ops => (ops.flatMap opProg).drop (sched.count t) := by
  obtain ⟨c', h⟩ := run_proper nd cs false 0 hos hp
  rw [hup] at h
  obtain ⟨ts', log, h1, -, h3, -, h5⟩ := runThreads_fit nd sched (threads.map caller) (up c') (by
    intro th hth
    obtain ⟨ops, -, rfl⟩ := List.mem_map.mp hth
    exact fit_caller (up c') ops (op_up c') none)
  refine ⟨up c', ts', log, h, h1, h3, ?_, ?_⟩
  · rintro ⟨a, ha, b, hb, -, -, hw⟩
    rcases hw with hw | hw
    · rw [h3 a ha] at hw; cases hw
    · rw [h3 b hb] at hw; cases hw
  · intro t
    rw [h5 t, List.getElem?_map, Option.map_map]
    rfl

/-- The hypotheses are met: two threads that sign and verify, four steps interleaved. -/
example : ∃ s ts log, run false [.init goodOs] start = .ok (some s) ∧
    runThreads false [0, 1, 1, 0] (([[Op.keySign], [Op.keyVerify, Op.keyNew]] : List (List Op)).map caller) s = .ok (ts, s, log) ∧ log.length = 4 :=
  ⟨up 0, _, _, by decide +kernel, rfl, by decide +kernel⟩

/-- C77 (why init and uninit must not overlap with anything). For every function there is a schedule in which one thread runs it and
another runs uninit that hands the library a context that is freed already. -/
theorem C77_uninit_must_wait (nd : Bool) (c : Nat) (o : Op) :
    ∃ sched, runThreads nd sched [caller [o], ⟨uninitProg, none⟩] (up c) = .ub := by
  refine ⟨[0] ++ ([1, 1, 1, 1, 1, 1, 1, 1] ++ [0]), ?_⟩
  obtain ⟨p, need, rest, hprog⟩ : ∃ p need rest, opProg o = .load p :: .enter need :: rest := by
    cases o <;> exact ⟨_, _, _, rfl⟩
  have h1 : runThreads nd [0] [caller [o], ⟨uninitProg, none⟩] (up c) =
      .ok ([⟨.enter need :: rest, pointer (up c) p⟩, ⟨uninitProg, none⟩], up c, [⟨0, .pointer p, false⟩]) := by
    simp [runThreads, sched1, caller, hprog, step, accesses]
  obtain ⟨log, h2⟩ := uninit_steps nd c ⟨.enter need :: rest, pointer (up c) p⟩
  rw [runThreads_append, h1, Res.ok_bind]
  simp only
  rw [runThreads_append, h2, Res.ok_bind]
  cases p <;> simp [runThreads, sched1, step, libCall, pointer, up, down]

/-- C77 (why init must not overlap with init). There is a schedule of two threads that both call init in which no assertion fails, two
of the four contexts are lost, and the accesses race. -/
theorem C77_init_must_wait : ∃ sched ts s log, runThreads false sched [⟨initProg, none⟩, ⟨initProg, none⟩] start = .ok (ts, s, log) ∧
    (∀ th ∈ ts, th.prog = []) ∧ s.live.length = 4 ∧ Race log := by
  refine ⟨[0, 1, 0, 1, 0, 1, 0, 1, 0, 1, 0, 1, 0, 1, 0, 1], _, _, _, rfl, ?_, ?_, ?_⟩ <;> decide +kernel

namespace Threads

theorem ok_of_bind {α β : Type} {m : Res α} {f : α → Res β} {b : β} (h : (m >>= f) = .ok b) : ∃ x, m = .ok x ∧ f x = .ok b := by
  cases m with
  | ok x => exact ⟨x, rfl, h⟩
  | ub => cases h
  | abort => cases h

/-- Whoever has come to the end has made every step of its program, and its accesses are in the log. -/
theorem all_logged (nd : Bool) (sched : List Nat) (ts ts' : List Thread) (s s' : State) (log : List Access)
    (h : runThreads nd sched ts s = .ok (ts', s', log)) (t : Nat) (th th' : Thread) (h0 : ts[t]? = some th) (h1 : ts'[t]? = some th')
    (hend : th'.prog = []) (i : Instr) (hi : i ∈ th.prog) : ∃ reg, ∀ a ∈ accesses t reg i, a ∈ log := by
  induction sched generalizing ts s log th with
  | nil =>
    rw [runThreads] at h
    cases h
    rw [h0] at h1
    cases h1
    rw [hend] at hi; cases hi
  | cons u more ih =>
    rw [runThreads] at h
    obtain ⟨⟨ts1, s1, a1⟩, e1, h⟩ := ok_of_bind h
    obtain ⟨⟨ts2, s2, a2⟩, e2, h⟩ := ok_of_bind h
    cases h
    have skip : ts1[t]? = some th → ∃ reg, ∀ a ∈ accesses t reg i, a ∈ a1 ++ a2 := fun h0 => by
      obtain ⟨reg, hr⟩ := ih ts1 s1 a2 e2 th h0 hi
      exact ⟨reg, fun a ha => List.mem_append_right _ (hr a ha)⟩
    rw [sched1] at e1
    by_cases hu : u = t
    · subst hu
      rw [h0] at e1
      simp only at e1
      split at e1
      · cases e1; exact skip h0
      · next j rest hp =>
        obtain ⟨⟨s3, reg⟩, e3, e1⟩ := ok_of_bind e1
        cases e1
        rw [hp] at hi
        rcases List.mem_cons.mp hi with rfl | hi
        · exact ⟨th.reg, fun a ha => List.mem_append_left _ ha⟩
        · have hlt : u < ts.length := (List.getElem?_eq_some_iff.mp h0).1
          obtain ⟨reg', hr⟩ := ih _ _ a2 e2 ⟨rest, reg⟩ (by rw [List.getElem?_set_self hlt]) hi
          exact ⟨reg', fun a ha => List.mem_append_right _ (hr a ha)⟩
    · split at e1
      · cases e1; exact skip h0
      · split at e1
        · cases e1; exact skip h0
        · obtain ⟨⟨s3, reg⟩, e3, e1⟩ := ok_of_bind e1
          cases e1
          exact skip (by rw [List.getElem?_set_ne hu]; exact h0)

end Threads

/-- C77 (init and uninit race with everything). Whenever a thread runs any of the other functions to its end while another runs init or
uninit - from whatever state, in whatever order, even if all goes well - one of them writes a pointer that the other reads. -/
theorem C77_init_uninit_race (nd : Bool) (sched : List Nat) (o : Op) (p : List Instr) (hp : p = initProg ∨ p = uninitProg)
    (s s' : State) (ts : List Thread) (log : List Access) (h : runThreads nd sched [caller [o], ⟨p, none⟩] s = .ok (ts, s', log))
    (th0 th1 : Thread) (h0 : ts[0]? = some th0) (h1 : ts[1]? = some th1) (e0 : th0.prog = []) (e1 : th1.prog = []) :
    (∃ k, ⟨0, .pointer k, false⟩ ∈ log ∧ ⟨1, .pointer k, true⟩ ∈ log) ∧ Race log := by
  have key : ∃ k, ⟨0, .pointer k, false⟩ ∈ log ∧ ⟨1, .pointer k, true⟩ ∈ log := by
    obtain ⟨k, hk⟩ : ∃ k, Instr.load k ∈ (caller [o]).prog := by
      cases o <;> exact ⟨_, List.mem_cons_self ..⟩
    obtain ⟨reg, hr⟩ := all_logged nd sched _ ts s s' log h 0 (caller [o]) th0 rfl h0 e0 _ hk
    refine ⟨k, hr _ (by simp [accesses]), ?_⟩
    rcases hp with rfl | rfl
    · obtain ⟨reg, hr⟩ := all_logged nd sched _ ts s s' log h 1 ⟨initProg, none⟩ th1 rfl h1 e1 (.store k) (by cases k <;> decide)
      exact hr _ (by simp [accesses])
    · obtain ⟨reg, hr⟩ := all_logged nd sched _ ts s s' log h 1 ⟨uninitProg, none⟩ th1 rfl h1 e1 (.storeNull k) (by cases k <;> decide)
      exact hr _ (by simp [accesses])
  refine ⟨key, ?_⟩
  obtain ⟨k, ha, hb⟩ := key
  exact ⟨_, ha, _, hb, by simp, rfl, Or.inr rfl⟩
