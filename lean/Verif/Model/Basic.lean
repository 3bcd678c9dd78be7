/-
Execution model shared by all modelled C functions.

A memory object is the list of its bytes as seen from the pointer handed to the C function.
Reads and writes outside the object are a distinct outcome (`Res.ub`), as are failed assertions
(`Res.abort`).  No C function of /repo is modelled in this file.
-/

/-- `unsigned char` / `uint8_t` (and the bit pattern of a `char`). -/
abbrev Byte := BitVec 8
abbrev U32 := BitVec 32
abbrev U64 := BitVec 64

/-- Outcome of running a piece of C code. -/
inductive Res (α : Type) where
  /-- normal return -/
  | ok (a : α)
  /-- undefined behaviour (out-of-bounds access, signed overflow, …) -/
  | ub
  /-- failed `assert`, or `FINGERA_FATAL` (which calls `exit`) -/
  | abort
deriving DecidableEq, Repr, Inhabited

namespace Res

def bind {α β : Type} : Res α → (α → Res β) → Res β
  | ok a, f => f a
  | ub, _ => ub
  | abort, _ => abort

instance : Monad Res where
  pure := ok
  bind := Res.bind

@[simp] theorem ok_bind {α β : Type} (a : α) (f : α → Res β) : (ok a >>= f) = f a := rfl
@[simp] theorem ub_bind {α β : Type} (f : α → Res β) : ((ub : Res α) >>= f) = ub := rfl
@[simp] theorem abort_bind {α β : Type} (f : α → Res β) : ((abort : Res α) >>= f) = abort := rfl
@[simp] theorem pure_eq {α : Type} (a : α) : (pure a : Res α) = ok a := rfl
@[simp] theorem map_ok {α β : Type} (f : α → β) (a : α) : f <$> (ok a) = ok (f a) := rfl

end Res

/-- Read the byte at offset `i` of a memory object. -/
def rd {α : Type} (mem : List α) (i : Nat) : Res α :=
  match mem[i]? with
  | some b => .ok b
  | none => .ub

/-- Write the byte at offset `i` of a memory object. -/
def wr {α : Type} (mem : List α) (i : Nat) (b : α) : Res (List α) :=
  if i < mem.length then .ok (mem.set i b) else .ub

/-- `assert(c)`. -/
def assertC (c : Bool) : Res Unit := if c then .ok () else .abort

/-- `assert(c)`, compiled away if `NDEBUG` is defined. -/
def assertNd (ndebug c : Bool) : Res Unit := if ndebug then .ok () else assertC c

/-- Body outcome of a loop: go on, or leave the loop / the function with a result. -/
inductive Step (σ ρ : Type) where
  | next (s : σ)
  | stop (r : ρ)
deriving DecidableEq, Repr

/-- `for (i = i0; i < i0 + k; i++) s = f(i, s)`. -/
def forLoop {σ : Type} (f : Nat → σ → Res σ) (i : Nat) : Nat → σ → Res σ
  | 0, s => .ok s
  | k+1, s => do
    let s ← f i s
    forLoop f (i+1) k s

/-- The same with `break` / `return` inside the body. -/
def forLoopB {σ ρ : Type} (f : Nat → σ → Res (Step σ ρ)) (i : Nat) : Nat → σ → Res (Step σ ρ)
  | 0, s => .ok (.next s)
  | k+1, s => do
    match ← f i s with
    | .next s => forLoopB f (i+1) k s
    | .stop r => .ok (.stop r)

/-- `memcpy(dst + off, src, n)` (also used for `memmove`; the modelled calls never overlap). -/
def memcpy {α : Type} (dst : List α) (off : Nat) (src : List α) (n : Nat) : Res (List α) :=
  if n ≤ src.length ∧ off + n ≤ dst.length then
    .ok (dst.take off ++ src.take n ++ dst.drop (off + n))
  else .ub

/-- ASCII code of a character literal in the C source. -/
def chr (c : Char) : Byte := BitVec.ofNat 8 c.toNat

/-- A C string literal without its terminating NUL. -/
def cstr (s : String) : List Byte := s.toList.map chr

/-- `strchr(str, c)` for `c ≠ 0`: offset of the first `c` before the terminating NUL, or NULL.
Running off the end of the object is undefined. The accumulator is the offset of the list head. -/
def strchrFrom (c : Byte) : List Byte → Nat → Res (Option Nat)
  | [], _ => .ub
  | b :: r, i => if b = c then .ok (some i) else if b = 0 then .ok none else strchrFrom c r (i+1)

def strchr (str : List Byte) (c : Byte) : Res (Option Nat) := strchrFrom c str 0

/-- `p[0] = v0; p[1] = v1; …` for a list of values. -/
def wrs {α : Type} (mem : List α) (p : Nat) : List α → Res (List α)
  | [] => .ok mem
  | v :: vs => do
    let mem ← wr mem p v
    wrs mem (p+1) vs

/-- `tbl[b0], tbl[b1], …`: table look-ups with in-range check. -/
def lookups {α : Type} (tbl : List α) : List Byte → Res (List α)
  | [] => .ok []
  | b :: bs => do
    let v ← rd tbl b.toNat
    let vs ← lookups tbl bs
    pure (v :: vs)

/-- `memset(dst + off, v, n)`. -/
def memset {α : Type} (dst : List α) (off : Nat) (v : α) (n : Nat) : Res (List α) :=
  if off + n ≤ dst.length then .ok (dst.take off ++ List.replicate n v ++ dst.drop (off + n)) else .ub

/-- `memcmp(a, b, n) == 0`. -/
def memeq (a b : List Byte) (n : Nat) : Res Bool :=
  if n ≤ a.length ∧ n ≤ b.length then .ok (a.take n == b.take n) else .ub

/-- `strrchr(str, c)` for `c ≠ 0`: offset of the last `c` before the terminating NUL, or NULL. `last`
is the last hit so far. -/
def strrchrFrom (c : Byte) : List Byte → Nat → Option Nat → Res (Option Nat)
  | [], _, _ => .ub
  | b :: r, i, last =>
    if b = c then strrchrFrom c r (i+1) (some i)
    else if b = 0#8 then .ok last else strrchrFrom c r (i+1) last

def strrchr (str : List Byte) (c : Byte) : Res (Option Nat) := strrchrFrom c str 0 none

/-- Number of iterations of `while (p != end) { … p++ … }`; if `p` is beyond `end` the loop runs out
of every object. -/
def untilPtr (p e : Nat) : Res Nat := if p ≤ e then .ok (e - p) else .ub
