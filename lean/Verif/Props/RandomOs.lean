import Verif.Model.RandomOs
import Verif.Props.Random
/-! Property theorems C74 (random bytes on Windows) and C75 (system handles are released); C59 for MSVC. -/
open Random

/-- C59, MSVC build: the bytes are zero. -/
theorem C59_cleanse_msvc (mem : List Byte) (size : Nat) (h : size ≤ mem.length) :
    ∃ out, cleanseMsvc mem size = .ok out ∧ out.length = mem.length ∧
      (∀ i, i < size → out[i]? = some 0#8) ∧ ∀ i, size ≤ i → out[i]? = mem[i]? := by
  refine ⟨List.replicate size 0#8 ++ mem.drop size, ?_, ?_, ?_, ?_⟩
  · rw [cleanseMsvc, memset, if_pos (by omega), Nat.zero_add]
    show memset _ _ _ _ = _
    have hl : ([] ++ List.replicate size 0xCC#8 ++ mem.drop size).length = mem.length := by
      rw [List.nil_append, List.length_append, List.length_replicate, List.length_drop]; omega
    rw [List.take_zero, memset, if_pos (by omega), Nat.zero_add, List.take_zero, List.nil_append, List.nil_append,
      List.drop_left' (by simp)]
  · rw [List.length_append, List.length_replicate, List.length_drop]; omega
  · intro i hi
    rw [List.getElem?_append_left (by simpa using hi), List.getElem?_replicate, if_pos hi]
  · intro i hi
    rw [List.getElem?_append_right (by simpa using hi), List.length_replicate, List.getElem?_drop]
    congr 1; omega

/-- C74 (proved part), both Windows implementations: for requests below 2^32 bytes a return means that the whole buffer was filled
by one request for exactly `size` bytes, and nothing behind it was touched; a failing provider or generator ends the process.
Missing: larger requests, see `C74_violated_large_request`. -/
theorem C74_windows_fills_partial (w : Win) (hw : w.Exact) (buf : List Byte) (size : Nat) (hs : size < 2 ^ 32)
    (hb : size ≤ buf.length) :
    ((∃ h, w.provider = some h ∧ ∃ bs, w.generator size = some bs ∧ bs.length = size ∧
        bcryptRandBytes w buf size = .ok (bs ++ buf.drop size, [.opened h, .generate h size, .closed h]) ∧
        cryptRandBytes w buf size = .ok (bs ++ buf.drop size, [.opened h, .generate h size, .closed h])) ∨
     ((w.provider = none ∨ w.generator size = none) ∧ bcryptRandBytes w buf size = .abort ∧
        cryptRandBytes w buf size = .abort)) := by
  have e : size % 2 ^ 32 = size := Nat.mod_eq_of_lt hs
  rw [bcryptRandBytes, cryptRandBytes, e]
  cases hp : w.provider with
  | none => exact .inr ⟨.inl rfl, rfl, rfl⟩
  | some h =>
    cases hg : w.generator size with
    | none => refine .inr ⟨.inr rfl, ?_, ?_⟩ <;> (dsimp only; rw [hg])
    | some bs =>
      have hl := hw _ _ hg
      refine .inl ⟨h, rfl, bs, rfl, hl, ?_⟩
      dsimp only
      rw [hg]
      dsimp only
      rw [memcpy_ok _ _ _ _ (by omega) (by omega), Res.ok_bind, List.take_of_length_le (l := bs) (by omega), Nat.zero_add]
      exact ⟨rfl, rfl⟩

/-- C74 is violated by both implementations for requests of 2^32 bytes and more (64-bit Windows): the size is cut to 32 bits, the
call returns normally, and the buffer from `size mod 2^32` on holds what it held before. -/
theorem C74_violated_large_request (w : Win) (hw : w.Exact) (h : Nat) (hp : w.provider = some h) (hg : ∀ n, w.generator n ≠ none)
    (buf : List Byte) (size : Nat) (hb : size ≤ buf.length) :
    ∃ out log, bcryptRandBytes w buf size = .ok (out, log) ∧ cryptRandBytes w buf size = .ok (out, log) ∧
      out.drop (size % 2 ^ 32) = buf.drop (size % 2 ^ 32) := by
  cases hgs : w.generator (size % 2 ^ 32) with
  | none => exact absurd hgs (hg _)
  | some bs =>
    have hl := hw _ _ hgs
    have hle := Nat.mod_le size (2 ^ 32)
    refine ⟨bs ++ buf.drop (size % 2 ^ 32), [.opened h, .generate h (size % 2 ^ 32), .closed h], ?_, ?_,
      List.drop_left' hl⟩
    · rw [bcryptRandBytes, hp]
      dsimp only
      rw [hgs]
      dsimp only
      rw [memcpy_ok _ _ _ _ (by omega) (by omega), Res.ok_bind, List.take_of_length_le (l := bs) (by omega), Nat.zero_add]
      rfl
    · rw [cryptRandBytes, hp]
      dsimp only
      rw [hgs]
      dsimp only
      rw [memcpy_ok _ _ _ _ (by omega) (by omega), Res.ok_bind, List.take_of_length_le (l := bs) (by omega), Nat.zero_add]
      rfl

/-- A witness: a working system, 2^32 bytes wanted, not one of them written. -/
theorem C74_violated_witness (w : Win) (h : Nat) (hp : w.provider = some h) (hg : ∀ n, w.generator n ≠ none)
    (buf : List Byte) (hb : buf.length = 2 ^ 32) : ∃ log, bcryptRandBytes w buf (2 ^ 32) = .ok (buf, log) := by
  have e : (2 ^ 32) % 2 ^ 32 = 0 := Nat.mod_self _
  rw [bcryptRandBytes, e, hp]
  dsimp only
  cases hgs : w.generator 0 with
  | none => exact absurd hgs (hg _)
  | some bs =>
    dsimp only
    rw [memcpy_ok _ _ _ _ (by omega) (by omega), Res.ok_bind]
    simp only [List.take_zero, List.nil_append, Nat.zero_add, List.drop_zero]
    exact ⟨_, rfl⟩

/-! ## C75 -/

/-- The handles that are open after the calls, `none` if a handle was used or closed that was not open. -/
def openHandles : List Call → List Nat → Option (List Nat)
  | [], l => some l
  | .opened h :: r, l => openHandles r (h :: l)
  | .read h _ :: r, l => if h ∈ l then openHandles r l else none
  | .generate h _ :: r, l => if h ∈ l then openHandles r l else none
  | .closed h :: r, l => if h ∈ l then openHandles r (l.erase h) else none

theorem openHandles_append (a b : List Call) (l : List Nat) :
    openHandles (a ++ b) l = (openHandles a l).bind (openHandles b) := by
  induction a generalizing l with
  | nil => rfl
  | cons c r ih =>
    cases c with
    | opened h => exact ih _
    | read h n => rw [List.cons_append, openHandles, openHandles]; split
                  · exact ih _
                  · rfl
    | generate h n => rw [List.cons_append, openHandles, openHandles]; split
                      · exact ih _
                      · rfl
    | closed h => rw [List.cons_append, openHandles, openHandles]; split
                  · exact ih _
                  · rfl

theorem readLoopCalls_spec (fd : Nat) (rs : List Reply) (buf : List Byte) (size : Nat) (log : List Call) :
    (readLoop buf size rs = .abort → readLoopCalls fd buf size log rs = .abort) ∧
    (readLoop buf size rs = .ub → readLoopCalls fd buf size log rs = .ub) ∧
    (readLoop buf size rs = .ok none → readLoopCalls fd buf size log rs = .ok none) ∧
    (∀ out rest, readLoop buf size rs = .ok (some (out, rest)) → ∃ counts : List Nat,
      readLoopCalls fd buf size log rs = .ok (some (out, rest, log ++ counts.map (Call.read fd))) ∧ counts.sum = size ∧
        0 ∉ counts) := by
  induction rs generalizing buf size log with
  | nil =>
    rw [readLoop.eq_def, readLoopCalls.eq_def]
    split
    · rename_i hs
      refine ⟨fun h => (by cases h), fun h => (by cases h), fun h => (by cases h), fun out rest h => ⟨[], ?_, by simp [hs], by simp⟩⟩
      rw [Res.ok.injEq, Option.some.injEq, Prod.mk.injEq] at h
      simp [h.1, h.2]
    · exact ⟨fun h => (by cases h), fun h => (by cases h), fun h => rfl, fun out rest h => (by cases h)⟩
  | cons r rs ih =>
    rw [readLoop.eq_def, readLoopCalls.eq_def]
    split
    · rename_i hs
      refine ⟨fun h => (by cases h), fun h => (by cases h), fun h => (by cases h), fun out rest h => ⟨[], ?_, by simp [hs], by simp⟩⟩
      rw [Res.ok.injEq, Option.some.injEq, Prod.mk.injEq] at h
      simp [h.1, h.2]
    · cases r with
      | error => exact ⟨fun _ => rfl, fun h => (by cases h), fun h => (by cases h), fun out rest h => (by cases h)⟩
      | bytes bs =>
        dsimp only
        split
        · exact ⟨fun _ => rfl, fun h => (by cases h), fun h => (by cases h), fun out rest h => (by cases h)⟩
        · rename_i h0
          cases hm : memcpy buf 0 bs (min bs.length size) with
          | ub => exact ⟨fun h => (by cases h), fun h => rfl, fun h => (by cases h), fun out rest h => (by cases h)⟩
          | abort => exact ⟨fun _ => rfl, fun h => (by cases h), fun h => (by cases h), fun out rest h => (by cases h)⟩
          | ok b =>
            rw [Res.ok_bind, Res.ok_bind]
            obtain ⟨a1, a2, a3, a4⟩ := ih b (size - min bs.length size) (log ++ [.read fd (min bs.length size)])
            refine ⟨a1, a2, a3, fun out rest h => ?_⟩
            obtain ⟨counts, c1, c2, c3⟩ := a4 out rest h
            refine ⟨min bs.length size :: counts, ?_, ?_, ?_⟩
            · rw [c1, List.map_cons, List.append_assoc]; rfl
            · rw [List.sum_cons, c2]; omega
            · rw [List.mem_cons, not_or]; exact ⟨fun h => h0 h.symm, c3⟩

/-- C75, Unix: the version with calls computes what `osRandBytes` (C58) does, and whenever it returns, it has opened one descriptor,
read from it replies that add up to exactly the size asked for, and closed it. -/
theorem C75_unix_closes (os : Os) (fd : Nat) (buf : List Byte) (size : Nat) :
    (osRandBytes os buf size = .abort → osRandBytesCalls os fd buf size = .abort) ∧
    (∀ out rest, osRandBytes os buf size = .ok (some (out, rest)) → ∃ counts : List Nat,
      osRandBytesCalls os fd buf size =
        .ok (some (out, rest, .opened fd :: counts.map (Call.read fd) ++ [.closed fd])) ∧
      counts.sum = size ∧ 0 ∉ counts ∧
      openHandles (.opened fd :: counts.map (Call.read fd) ++ [.closed fd]) [] = some []) := by
  rw [osRandBytes, osRandBytesCalls]
  cases os.opens with
  | false => exact ⟨fun _ => rfl, fun out rest h => (by cases h)⟩
  | true =>
    obtain ⟨a1, a2, a3, a4⟩ := readLoopCalls_spec fd os.replies buf size [.opened fd]
    simp only [Bool.not_true, Bool.false_eq_true, if_false]
    refine ⟨fun h => by rw [a1 h]; rfl, fun out rest h => ?_⟩
    obtain ⟨counts, c1, c2, c3⟩ := a4 out rest h
    refine ⟨counts, ?_, c2, c3, ?_⟩
    · rw [c1]; rfl
    · have hr : ∀ cs : List Nat, openHandles (cs.map (Call.read fd)) [fd] = some [fd] := by
        intro cs
        induction cs with
        | nil => rfl
        | cons c r ih => rw [List.map_cons, openHandles, if_pos (by simp)]; exact ih
      rw [openHandles_append]
      show (openHandles (counts.map (Call.read fd)) [fd]).bind _ = _
      rw [hr]
      show openHandles [.closed fd] [fd] = _
      simp [openHandles]

/-- C75, Windows: whenever either implementation returns, the provider has been opened, asked once and closed, whatever the size. -/
theorem C75_windows_closes (w : Win) (buf out : List Byte) (size : Nat) (log : List Call)
    (h : bcryptRandBytes w buf size = .ok (out, log) ∨ cryptRandBytes w buf size = .ok (out, log)) :
    ∃ p, w.provider = some p ∧ log = [.opened p, .generate p (size % 2 ^ 32), .closed p] ∧ openHandles log [] = some [] := by
  have key : ∀ p n, openHandles [.opened p, .generate p n, .closed p] [] = some [] := by
    intro p n; simp [openHandles]
  rcases h with h | h
  · rw [bcryptRandBytes] at h
    cases hp : w.provider with
    | none => rw [hp] at h; cases h
    | some p =>
      rw [hp] at h
      dsimp only at h
      cases hg : w.generator (size % 2 ^ 32) with
      | none => rw [hg] at h; cases h
      | some bs =>
        rw [hg] at h
        dsimp only at h
        cases hm : memcpy buf 0 bs (size % 2 ^ 32) with
        | ub => rw [hm] at h; cases h
        | abort => rw [hm] at h; cases h
        | ok b =>
          rw [hm, Res.ok_bind] at h
          have h : Res.ok (b, [Call.opened p, .generate p (size % 2 ^ 32), .closed p]) = .ok (out, log) := h
          rw [Res.ok.injEq, Prod.mk.injEq] at h
          exact ⟨p, rfl, h.2.symm, by rw [← h.2]; exact key _ _⟩
  · rw [cryptRandBytes] at h
    cases hp : w.provider with
    | none => rw [hp] at h; cases h
    | some p =>
      rw [hp] at h
      dsimp only at h
      cases hg : w.generator (size % 2 ^ 32) with
      | none => rw [hg] at h; cases h
      | some bs =>
        rw [hg] at h
        dsimp only at h
        cases hm : memcpy buf 0 bs (size % 2 ^ 32) with
        | ub => rw [hm] at h; cases h
        | abort => rw [hm] at h; cases h
        | ok b =>
          rw [hm, Res.ok_bind] at h
          have h : Res.ok (b, [Call.opened p, .generate p (size % 2 ^ 32), .closed p]) = .ok (out, log) := h
          rw [Res.ok.injEq, Prod.mk.injEq] at h
          exact ⟨p, rfl, h.2.symm, by rw [← h.2]; exact key _ _⟩

/-! ## Concrete cases -/

/-- A system that works exists. -/
def goodWin : Win := ⟨some 7, fun n => some (List.replicate n 0x42#8)⟩
example : goodWin.Exact := by
  intro n bs h
  have h : some (List.replicate n 0x42#8) = some bs := h
  rw [Option.some.injEq] at h
  rw [← h, List.length_replicate]
example : bcryptRandBytes goodWin [1, 2, 3, 4] 3 =
    .ok ([0x42, 0x42, 0x42, 4], [.opened 7, .generate 7 3, .closed 7]) := by decide +kernel
example : osRandBytesCalls ⟨true, [.bytes [1, 2], .bytes [3, 4, 5]]⟩ 3 [0xAA, 0xAA, 0xAA, 0xAA] 4 =
    .ok (some ([3, 4, 0xAA, 0xAA], [], [.opened 3, .read 3 2, .read 3 2, .closed 3])) := by decide +kernel
example : openHandles [.opened 1] [] = some [1] ∧ openHandles [.opened 1, .closed 1, .read 1 4] [] = none := by decide
example : cleanseMsvc [1, 2, 3] 2 = .ok [0, 0, 3] := by decide
