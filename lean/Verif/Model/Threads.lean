import Verif.Model.KeyContext
/-!
The functions of `src/btc/key.c` run by several threads: the shared memory is the two static pointers (key.c:329-330) and the contexts
they point to; nothing else in the library is both static and modified.  Each function is the sequence of its accesses to that memory,
in the order of the C text; a scheduler interleaves these steps in any way.
-/
namespace Threads
open KeyContext

/-- One step of a thread.  `reg` is the pointer value it holds at the moment. -/
inductive Instr where
  /-- the value of a static pointer is read to be handed to the library -/
  | load (p : Kind)
  /-- a library call that takes `const secp256k1_context *` begins with the pointer read: NULL, dangling or incapable contexts as in
  `KeyContext.libCall` -/
  | enter (need : Option Kind)
  /-- the library call returns: it has read the context until now -/
  | leave
  /-- `assert(pointer == NULL)` -/
  | assertNull (p : Kind)
  /-- `assert(pointer != NULL)` -/
  | assertSet (p : Kind)
  /-- `secp256k1_context_create` -/
  | create (k : Kind)
  /-- the pointer value is stored -/
  | store (p : Kind)
  /-- `pointer = NULL` -/
  | storeNull (p : Kind)
  /-- `secp256k1_context_randomize` with the pointer read, which modifies the context -/
  | randomize
  /-- `secp256k1_context_destroy` with the pointer read -/
  | destroy
deriving DecidableEq, Repr

/-- What is shared. -/
inductive Loc where
  | pointer (p : Kind)
  | context (id : Nat)
deriving DecidableEq, Repr

/-- One access to shared memory by a thread. -/
structure Access where
  thread : Nat
  loc : Loc
  write : Bool
deriving DecidableEq, Repr

/-- A thread: what it has still to do, and the pointer it holds. -/
structure Thread where
  prog : List Instr
  reg : Option Nat
deriving DecidableEq, Repr

/-- The static pointer of a kind. -/
def pointer (s : State) : Kind → Option Nat
  | .sign => s.sign
  | .verify => s.verify

/-- The assignment to a static pointer. -/
def setPointer (s : State) (p : Kind) (v : Option Nat) : State :=
  match p with
  | .sign => { s with sign := v }
  | .verify => { s with verify := v }

/-- The accesses a step makes: `reg` is the pointer the thread holds before it. -/
def accesses (t : Nat) (reg : Option Nat) : Instr → List Access
  | .load p | .assertNull p | .assertSet p => [⟨t, .pointer p, false⟩]
  | .store p | .storeNull p => [⟨t, .pointer p, true⟩]
  | .enter _ | .leave => (reg.map fun id => (⟨t, .context id, false⟩ : Access)).toList
  | .randomize | .destroy => (reg.map fun id => (⟨t, .context id, true⟩ : Access)).toList
  | .create _ => []

/-- The effect of a step on the shared state and the pointer the thread holds. -/
def step (nd : Bool) (s : State) (reg : Option Nat) : Instr → Res (State × Option Nat)
  | .load p => .ok (s, pointer s p)
  | .enter need => do libCall reg need s; pure (s, reg)
  | .leave => do libCall reg none s; pure (s, reg)
  | .assertNull p => do assertNd nd (pointer s p).isNone; pure (s, reg)
  | .assertSet p => do assertNd nd (pointer s p).isSome; pure (s, reg)
  | .create k => let (id, s) := KeyContext.create k s; .ok (s, some id)
  | .store p => .ok (setPointer s p reg, reg)
  | .storeNull p => .ok (setPointer s p none, reg)
  | .randomize => do libCall reg (some .sign) s; pure (s, reg)
  | .destroy => do let s ← KeyContext.destroy reg s; pure (s, reg)

/-- `fingera_btc_key_init`, src/btc/key.c:332-343 (the random bytes, line 338, are not shared). -/
def initProg : List Instr :=
  [.assertNull .verify, .create .verify, .store .verify, .assertNull .sign, .create .sign, .store .sign, .load .sign, .randomize]

/-- `fingera_btc_key_uninit`, src/btc/key.c:345-352. -/
def uninitProg : List Instr :=
  [.assertSet .sign, .load .sign, .destroy, .storeNull .sign, .assertSet .verify, .load .verify, .destroy, .storeNull .verify]

/-- Any other exported function: each of its library calls (`KeyContext.calls`) reads a static pointer and then the context. -/
def opProg (o : Op) : List Instr := (calls o).flatMap fun c => [.load c.1, .enter c.2, .leave]

/-- One step of the scheduler: thread `t` goes on, if it has something to do. -/
def sched1 (nd : Bool) (t : Nat) (ts : List Thread) (s : State) : Res (List Thread × State × List Access) :=
  match ts[t]? with
  | none => .ok (ts, s, [])
  | some th =>
    match th.prog with
    | [] => .ok (ts, s, [])
    | i :: rest => do
      let (s, reg) ← step nd s th.reg i
      pure (ts.set t ⟨rest, reg⟩, s, accesses t th.reg i)

/-- A schedule: which thread makes the next step. Returns the threads, the shared state and all accesses in their order. -/
def runThreads (nd : Bool) : List Nat → List Thread → State → Res (List Thread × State × List Access)
  | [], ts, s => .ok (ts, s, [])
  | t :: more, ts, s => do
    let (ts, s, a) ← sched1 nd t ts s
    let (ts, s, b) ← runThreads nd more ts s
    pure (ts, s, a ++ b)

end Threads
