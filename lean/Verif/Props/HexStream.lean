import Verif.Model.HexStream
import Verif.Lemmas.Hex
/-!
C107.  The hex dump and the stream it goes to: the calls of `fwrite`, streams that lose characters, and dumps of several threads.
-/
open Hex HexSpec HexStream

namespace HexStream

/-! ### Specification -/

/-- The text of byte number `i` with the separators in front of it. -/
def token (upper : Bool) (buf : List Byte) (i : Nat) : List Byte :=
  sep i ++ [digit upper ((buf.getD i 0).toNat / 16), digit upper ((buf.getD i 0).toNat % 16)]

/-- The texts handed to the stream, call by call. -/
def texts (calls : List Call) : List (List Byte) := calls.map Call.data

/-- What arrives at the other end of the stream. -/
def arrived (calls : List Call) : List Byte := (calls.map Call.arrived).flatten

/-- `out` is an interleaving of the sequences `ts`: each step takes the first element of one of them. -/
inductive Interleaving {α : Type} : List (List α) → List α → Prop where
  | done (ts : List (List α)) (h : ∀ t ∈ ts, t = []) : Interleaving ts []
  | step (ts : List (List α)) (i : Nat) (x : α) (rest out : List α) (h : ts[i]? = some (x :: rest))
      (next : Interleaving (ts.set i rest) out) : Interleaving ts (x :: out)

/-- One dump a thread has printed, with the calls it made. -/
structure Job where
  buf : List Byte
  upper : Bool
  calls : List Call

/-- `fingera_hex_dump(buf, buf_size, upper)` ran and made these calls. -/
def Job.Done (job : Job) : Prop :=
  ∃ room cache0, cache0.length = 1024 ∧ HexStream.hexDump room cache0 job.buf job.buf.length job.upper = .ok job.calls

/-! ### The loop -/

/-- Everything handed over or waiting in the cache. -/
def State.waiting (d : State) : List Byte := d.cache.take d.len

theorem State.put_spec (d : State) (c : Byte) (h : d.len < d.cache.length) :
    ∃ d', d.put c = .ok d' ∧ d'.waiting = d.waiting ++ [c] ∧ d'.len = d.len + 1 ∧
      d'.cache.length = d.cache.length ∧ d'.calls = d.calls := by
  refine ⟨{ d with cache := d.cache.set d.len c, len := d.len + 1 }, by simp [State.put, wr, h], ?_, rfl, by simp, rfl⟩
  have h' : d.len < (d.cache.set d.len c).length := by simpa using h
  simp only [State.waiting]
  rw [List.take_succ_eq_append_getElem h']
  simp [List.take_set_of_le]

theorem State.putIf_spec (d : State) (b : Bool) (c : Byte) (h : d.len < d.cache.length) :
    ∃ d', d.putIf b c = .ok d' ∧ d'.waiting = d.waiting ++ (if b then [c] else []) ∧
      d'.len ≤ d.len + 1 ∧ d'.cache.length = d.cache.length ∧ d'.calls = d.calls := by
  cases b
  · exact ⟨d, rfl, by simp, by omega, rfl, rfl⟩
  · obtain ⟨d', h1, h2, h3, h4, h5⟩ := d.put_spec c h
    exact ⟨d', h1, by simpa using h2, by omega, h4, h5⟩

/-- The call number `k` with the text `t`. -/
def call (room : Nat → Nat) (k : Nat) (t : List Byte) : Call := ⟨t, min (room k) t.length⟩

theorem State.fwrite_ok (room : Nat → Nat) (d : State) (h : d.len ≤ d.cache.length) :
    d.fwrite room = .ok { d with calls := d.calls ++ [call room d.calls.length d.waiting] } := by
  have hl : d.waiting.length = d.len := by simp [State.waiting]; omega
  rw [State.fwrite, if_pos h, call, hl]; rfl

theorem body_spec (room : Nat → Nat) (buf : List Byte) (upper : Bool) (i : Nat) (d : State)
    (hi : i < buf.length) (hc : d.cache.length = 1024) (hl : d.len ≤ 1000) :
    ∃ d', body room buf upper i d = .ok d' ∧ d'.cache.length = 1024 ∧
      (((d.waiting ++ token upper buf i).length ≤ 1000 ∧ d'.calls = d.calls ∧ d'.len ≤ 1000 ∧
          d'.waiting = d.waiting ++ token upper buf i) ∨
       (1000 < (d.waiting ++ token upper buf i).length ∧ d'.len = 0 ∧
          d'.calls = d.calls ++ [call room d.calls.length (d.waiting ++ token upper buf i)])) := by
  obtain ⟨d1, e1, c1, l1, m1, k1⟩ := d.putIf_spec (i ≠ 0 && i % 4 = 0) (chr ' ') (by omega)
  obtain ⟨d2, e2, c2, l2, m2, k2⟩ := d1.putIf_spec (i ≠ 0 && i % 8 = 0) (chr ' ') (by omega)
  obtain ⟨d3, e3, c3, l3, m3, k3⟩ := d2.putIf_spec (i ≠ 0 && i % 16 = 0) (chr ' ') (by omega)
  obtain ⟨d4, e4, c4, l4, m4, k4⟩ := d3.putIf_spec (i ≠ 0 && i % 32 = 0) (chr '\n') (by omega)
  obtain ⟨d5, e5, c5, l5, m5, k5⟩ := d4.put_spec (digit upper (buf[i].toNat / 16)) (by omega)
  obtain ⟨d6, e6, c6, l6, m6, k6⟩ := d5.put_spec (digit upper (buf[i].toNat % 16)) (by omega)
  have hcont : d6.waiting = d.waiting ++ token upper buf i := by
    rw [c6, c5, c4, c3, c2, c1]
    have s1 : chr ' ' = 32#8 := by decide
    have s2 : chr '\n' = 10#8 := by decide
    have s3 : buf.getD i 0 = buf[i] := by simp [List.getD, hi]
    rw [s1, s2, token, s3]
    by_cases h0 : i = 0
    · simp [h0, sep]
    · simp [sep, h0]
  have hk : d6.calls = d.calls := by rw [k6, k5, k4, k3, k2, k1]
  have hlen : d6.waiting.length = d6.len := by simp [State.waiting]; omega
  have hrun : body room buf upper i d =
      (if d6.len > 1000 then do
        let d ← d6.fwrite room
        pure { d with len := 0 }
      else pure d6) := by
    unfold body
    simp only [rd_ok _ _ hi, Res.ok_bind, e1, e2, e3, e4, rd_hexStr_hi, rd_hexStr_lo, e5, e6]
  rw [hrun]
  split
  · rename_i hgt
    rw [State.fwrite_ok room d6 (by omega)]
    refine ⟨_, rfl, by show d6.cache.length = 1024; omega, Or.inr ⟨by rw [← hcont, hlen]; omega, rfl, ?_⟩⟩
    show d6.calls ++ [call room d6.calls.length d6.waiting] = _
    rw [hk, hcont]
  · refine ⟨d6, rfl, by omega, Or.inl ⟨by rw [← hcont, hlen]; omega, hk, by omega, hcont⟩⟩

/-- The calls numbered from `k` on with the texts `ts`. -/
def callsFrom (room : Nat → Nat) (k : Nat) : List (List Byte) → List Call
  | [] => []
  | t :: ts => call room k t :: callsFrom room (k + 1) ts

theorem callsFrom_append (room : Nat → Nat) (k : Nat) (ts us : List (List Byte)) :
    callsFrom room k (ts ++ us) = callsFrom room k ts ++ callsFrom room (k + ts.length) us := by
  induction ts generalizing k with
  | nil => simp [callsFrom]
  | cons t ts ih => simp [callsFrom, ih, Nat.add_assoc, Nat.add_comm 1]

theorem callsFrom_length (room : Nat → Nat) (k : Nat) (ts : List (List Byte)) : (callsFrom room k ts).length = ts.length := by
  induction ts generalizing k with
  | nil => rfl
  | cons t ts ih => simp [callsFrom, ih]

theorem texts_callsFrom (room : Nat → Nat) (k : Nat) (ts : List (List Byte)) : texts (callsFrom room k ts) = ts := by
  induction ts generalizing k with
  | nil => rfl
  | cons t ts ih => simpa [callsFrom, texts, call] using ih (k + 1)

theorem callsFrom_getElem? (room : Nat → Nat) (k : Nat) (ts : List (List Byte)) (j : Nat) :
    (callsFrom room k ts)[j]? = ts[j]?.map (call room (k + j)) := by
  induction ts generalizing k j with
  | nil => simp [callsFrom]
  | cons t ts ih =>
    cases j with
    | zero => simp [callsFrom]
    | succ j => simp [callsFrom, ih, Nat.add_assoc, Nat.add_comm 1]

/-- Groups of tokens, each but the last just over 1000 characters. -/
def Groups (gs : List (List (List Byte))) : Prop :=
  ∀ g ∈ gs, 1000 < g.flatten.length ∧ g.dropLast.flatten.length ≤ 1000

theorem hexDump_groups (room : Nat → Nat) (cache0 buf : List Byte) (n : Nat) (upper : Bool)
    (hc : cache0.length = 1024) (hn : n ≤ buf.length) :
    ∃ gs last, Groups gs ∧ last.flatten.length ≤ 1000 ∧
      gs.flatten ++ last = (List.range n).map (token upper buf) ∧
      hexDump room cache0 buf n upper =
        .ok (callsFrom room 0 (gs.map List.flatten ++ [last.flatten ++ [chr '\n']])) := by
  obtain ⟨d, hd, h1, h2, gs, last, h3, h4, h5, h6⟩ := forLoop_spec (body room buf upper)
    (fun j d => d.cache.length = 1024 ∧ d.len ≤ 1000 ∧ ∃ gs last, Groups gs ∧ d.waiting = last.flatten ∧
      gs.flatten ++ last = (List.range j).map (token upper buf) ∧ d.calls = callsFrom room 0 (gs.map List.flatten))
    n 0 { cache := cache0, len := 0, calls := [] }
    ⟨hc, by simp, [], [], by simp [Groups], by simp [State.waiting], by simp, by simp [callsFrom]⟩
    (by
      intro j s _ hj ⟨a, b, gs, last, g1, g2, g3, g4⟩
      have hj' : j < buf.length := by omega
      have hw : s.waiting.length = s.len := by simp [State.waiting]; omega
      obtain ⟨d', r1, r2, r3⟩ := body_spec room buf upper j s hj' a b
      refine ⟨d', r1, r2, ?_⟩
      have hrange : (List.range (j + 1)).map (token upper buf) = (List.range j).map (token upper buf) ++ [token upper buf j] := by
        rw [List.range_succ]; simp
      rcases r3 with ⟨_, q2, q3, q4⟩ | ⟨q1, q2, q3⟩
      · refine ⟨q3, gs, last ++ [token upper buf j], g1, by rw [q4, g2]; simp, ?_, by rw [q2, g4]⟩
        rw [hrange, ← g3]; simp
      · refine ⟨by omega, gs ++ [last ++ [token upper buf j]], [], ?_, by simp [State.waiting, q2], ?_, ?_⟩
        · intro g hg
          rw [List.mem_append, List.mem_singleton] at hg
          rcases hg with hg | rfl
          · exact g1 g hg
          · constructor
            · rw [g2] at q1; simpa using q1
            · rw [List.dropLast_concat, ← g2, hw]; exact b
        · rw [hrange, ← g3]; simp
        · rw [q3, g4, g2, List.map_append, callsFrom_append, callsFrom_length]
          simp [callsFrom])
  obtain ⟨d', e1, e2, e3, e4, e5⟩ := d.put_spec (chr '\n') (by omega)
  rw [Nat.zero_add] at h5
  refine ⟨gs, last, h3, ?_, h5, ?_⟩
  · rw [← h4]; simp [State.waiting]; omega
  · have hf := State.fwrite_ok room d' (by omega)
    simp only [hexDump, hd, e1, Res.ok_bind]
    rw [if_pos (by omega), hf, e5, e2, h4, h6, callsFrom_length, callsFrom_append]
    simp [callsFrom]

theorem tokens_flatten (upper : Bool) (buf : List Byte) (n : Nat) (hn : n ≤ buf.length) :
    ((List.range n).map (token upper buf)).flatten = dumpFrom upper 0 (buf.take n) := by
  induction n with
  | zero => simp [dumpFrom]
  | succ n ih =>
    have h' : n < buf.length := hn
    rw [List.range_succ, List.map_append, List.flatten_append, ih (by omega), List.take_succ_eq_append_getElem h', dumpFrom_append]
    simp [token, List.getD, h', Nat.min_eq_left (Nat.le_of_lt h')]

theorem div_step (n k : Nat) (h0 : n ≠ 0) : (n + 1 - 1) / k = (n - 1) / k + (if n % k = 0 then 1 else 0) := by
  obtain ⟨m, rfl⟩ : ∃ m, n = m + 1 := ⟨n - 1, by omega⟩
  simp only [Nat.add_sub_cancel]
  rw [Nat.succ_div]
  simp only [Nat.dvd_iff_mod_eq_zero]

theorem sep_length (n : Nat) (h0 : n ≠ 0) : (sep n).length = (if n % 4 = 0 then 1 else 0) + (if n % 8 = 0 then 1 else 0) +
    (if n % 16 = 0 then 1 else 0) + (if n % 32 = 0 then 1 else 0) := by
  have h (p : Prop) [Decidable p] (x : BitVec 8) : (if p then [x] else []).length = if p then 1 else 0 := by split <;> rfl
  rw [sep, if_neg h0]
  simp only [List.length_append, h]

theorem take_length (upper : Bool) (l : List Byte) (n : Nat) (hn : n ≤ l.length) :
    (dumpFrom upper 0 (l.take n)).length = 2 * n + (n - 1) / 4 + (n - 1) / 8 + (n - 1) / 16 + (n - 1) / 32 := by
  induction n with
  | zero => rfl
  | succ n ih =>
    rw [List.take_succ_eq_append_getElem hn, dumpFrom_append, List.length_append, ih (by omega), Nat.zero_add, List.length_take,
      Nat.min_eq_left (by omega), List.length_append, List.length_cons, List.length_cons, List.length_nil]
    by_cases h0 : n = 0
    · subst h0; rfl
    · rw [sep_length n h0, div_step n 4 h0, div_step n 8 h0, div_step n 16 h0, div_step n 32 h0]
      generalize (n - 1) / 4 = a, (n - 1) / 8 = b, (n - 1) / 16 = c, (n - 1) / 32 = d
      generalize (if n % 4 = 0 then 1 else 0) = a', (if n % 8 = 0 then 1 else 0) = b', (if n % 16 = 0 then 1 else 0) = c',
        (if n % 32 = 0 then 1 else 0) = d'
      omega

theorem token_length (upper : Bool) (buf : List Byte) (i : Nat) : (token upper buf i).length ≤ 6 ∧ 2 ≤ (token upper buf i).length := by
  simp only [token, List.length_append, List.length_cons, List.length_nil]
  by_cases h0 : i = 0
  · subst h0; decide
  · rw [sep_length i h0]
    have h (p : Prop) [Decidable p] : (if p then 1 else 0) ≤ 1 := by split <;> omega
    have := h (i % 4 = 0); have := h (i % 8 = 0); have := h (i % 16 = 0); have := h (i % 32 = 0)
    generalize (if i % 4 = 0 then 1 else 0) = a', (if i % 8 = 0 then 1 else 0) = b', (if i % 16 = 0 then 1 else 0) = c',
        (if i % 32 = 0 then 1 else 0) = d' at *
    omega

theorem digit_not_blank (upper : Bool) (x : Nat) (h : x < 16) : digit upper x ≠ 32#8 ∧ digit upper x ≠ 10#8 := by
  have : ∀ y : Fin 16, ∀ u : Bool, digit u y ≠ 32#8 ∧ digit u y ≠ 10#8 := by decide
  exact this ⟨x, h⟩ upper

theorem group_size (m : Nat)
    (a1 : 1000 < 2 * (m + 1) + (m + 1 - 1) / 4 + (m + 1 - 1) / 8 + (m + 1 - 1) / 16 + (m + 1 - 1) / 32)
    (a3 : 2 * m + (m - 1) / 4 + (m - 1) / 8 + (m - 1) / 16 + (m - 1) / 32 ≤ 1000) : m = 406 := by
  rw [Nat.add_sub_cancel] at a1
  rcases Nat.lt_trichotomy m 406 with h | h | h
  · have h1 : m / 4 ≤ 101 := by omega
    have h2 : m / 8 ≤ 50 := by omega
    have h3 : m / 16 ≤ 25 := by omega
    have h4 : m / 32 ≤ 12 := by omega
    generalize m / 4 = a, m / 8 = b, m / 16 = c, m / 32 = d at *
    omega
  · exact h
  · have h1 : 101 ≤ (m - 1) / 4 := by omega
    have h2 : 50 ≤ (m - 1) / 8 := by omega
    have h3 : 25 ≤ (m - 1) / 16 := by omega
    have h4 : 12 ≤ (m - 1) / 32 := by omega
    generalize (m - 1) / 4 = a, (m - 1) / 8 = b, (m - 1) / 16 = c, (m - 1) / 32 = d at *
    omega

theorem dumpFrom_take (upper : Bool) (i k : Nat) (l : List Byte) :
    dumpFrom upper i l = dumpFrom upper i (l.take k) ++ dumpFrom upper (i + k) (l.drop k) := by
  induction k generalizing i l with
  | zero => simp [dumpFrom]
  | succ k ih =>
    cases l with
    | nil => simp [dumpFrom]
    | cons b l =>
      simp only [List.take_succ_cons, List.drop_succ_cons, dumpFrom, List.append_assoc]
      rw [ih (i + 1) l, show i + 1 + k = i + (k + 1) by omega]

/-- The text behind the first 407 bytes: a newline, or one more byte and then a blank or a newline. -/
theorem after_407 (upper : Bool) (buf : List Byte) :
    ∃ rest, dump upper buf = dumpFrom upper 0 (buf.take 407) ++ rest ∧
      (rest[0]? = some 10#8 ∨ rest[2]? = some 32#8 ∨ rest[2]? = some 10#8) := by
  refine ⟨dumpFrom upper 407 (buf.drop 407) ++ [10#8], ?_, ?_⟩
  · rw [dump, dumpFrom_take upper 0 407 buf, List.append_assoc, Nat.zero_add]
  · have s7 : sep 407 = [] := by decide
    have s8 : sep 408 = [32#8, 32#8] := by decide
    rcases buf.drop 407 with _ | ⟨x, l⟩
    · left; rfl
    · rcases l with _ | ⟨y, l⟩
      · right; right
        simp [dumpFrom, s7]
      · right; left
        simp [dumpFrom, s7, s8]

/-- A dump begins with four digits, so it does not begin like the text behind the first 407 bytes of one. -/
theorem begin_ne (upper : Bool) (l rest X Y : List Byte) (h : 1 < l.length)
    (hr : rest[0]? = some 10#8 ∨ rest[2]? = some 32#8 ∨ rest[2]? = some 10#8) :
    dumpFrom upper 0 l ++ X ≠ rest ++ Y := by
  rcases l with _ | ⟨x, _ | ⟨y, l⟩⟩
  · simp at h
  · simp at h
  · intro he
    have d0 := digit_not_blank upper (x.toNat / 16) (by have := x.isLt; omega)
    have d2 := digit_not_blank upper (y.toNat / 16) (by have := y.isLt; omega)
    have s0 : sep 0 = [] := rfl
    have s1 : sep 1 = [] := rfl
    have key : ∀ (k : Nat) (c : Byte), rest[k]? = some c → (dumpFrom upper 0 (x :: y :: l) ++ X)[k]? = some c := by
      intro k c hk
      have hlt : k < rest.length := by
        by_cases hlt : k < rest.length
        · exact hlt
        · rw [List.getElem?_eq_none (by omega)] at hk; cases hk
      rw [he, List.getElem?_append_left hlt, hk]
    rcases hr with hr | hr | hr
    · have := key _ _ hr
      simp [dumpFrom, s0] at this
      exact d0.2 this
    · have := key _ _ hr
      simp [dumpFrom, s0, s1] at this
      exact d2.1 this
    · have := key _ _ hr
      simp [dumpFrom, s0, s1] at this
      exact d2.2 this

theorem interleaving_one (rb : List (List Byte)) : Interleaving [[], rb] rb := by
  induction rb with
  | nil => exact .done _ (by simp)
  | cons x rb ih => exact .step _ 1 x rb rb rfl ih

theorem interleaving_two (ra rb : List (List Byte)) : Interleaving [ra, rb] (ra ++ rb) := by
  induction ra with
  | nil => exact interleaving_one rb
  | cons x ra ih => exact .step _ 0 x ra (ra ++ rb) rfl ih

end HexStream

/-! ### The property -/

/-- C107. The calls: for every buffer and whatever the stream takes, `fwrite` is called with the dump cut into pieces; each piece consists
of whole bytes (with the separators in front of them), every piece but the last is just over 1000 characters long (it would not be
without its last byte), the last one is at most 1000 characters and the final newline, and the pieces in order make up the whole dump.
What the stream does with a piece has no influence on the calls that follow. -/
theorem C107_calls (room : Nat → Nat) (cache0 buf : List Byte) (n : Nat) (upper : Bool) (hc : cache0.length = 1024)
    (hn : n ≤ buf.length) :
    ∃ (calls : List Call) (gs : List (List (List Byte))) (last : List (List Byte)), HexStream.hexDump room cache0 buf n upper = .ok calls ∧
      texts calls = gs.map List.flatten ++ [last.flatten ++ [chr '\n']] ∧
      gs.flatten ++ last = (List.range n).map (token upper buf) ∧
      (∀ g ∈ gs, 1000 < g.flatten.length ∧ g.flatten.length ≤ 1006 ∧ g.dropLast.flatten.length ≤ 1000) ∧
      last.flatten.length ≤ 1000 ∧
      (texts calls).flatten = HexSpec.dump upper (buf.take n) ∧
      (∀ j c, calls[j]? = some c → c.took = min (room j) c.data.length) := by
  obtain ⟨gs, last, h1, h2, h3, h4⟩ := hexDump_groups room cache0 buf n upper hc hn
  refine ⟨_, gs, last, h4, texts_callsFrom _ _ _, h3, ?_, h2, ?_, ?_⟩
  · intro g hg
    refine ⟨(h1 g hg).1, ?_, (h1 g hg).2⟩
    have hne : g ≠ [] := by
      rintro rfl
      exact absurd (h1 _ hg).1 (by simp)
    have hmem : g.getLast hne ∈ (List.range n).map (token upper buf) := by
      rw [← h3]
      exact List.mem_append_left _ (List.mem_flatten.2 ⟨g, hg, List.getLast_mem hne⟩)
    obtain ⟨i, _, hi⟩ := List.mem_map.1 hmem
    have hlen : g.flatten.length = g.dropLast.flatten.length + (g.getLast hne).length := by
      conv => lhs; rw [← List.dropLast_concat_getLast hne]
      simp
    have h6 := token_length upper buf i
    rw [hi] at h6
    have := (h1 g hg).2
    omega
  · rw [texts_callsFrom, HexSpec.dump, ← tokens_flatten upper buf n hn, ← h3]
    have : chr '\n' = 10#8 := by decide
    simp [this, List.flatten_flatten]
  · intro j c hj
    rw [callsFrom_getElem?] at hj
    cases ht : (gs.map List.flatten ++ [last.flatten ++ [chr '\n']])[j]? with
    | none => rw [ht] at hj; simp at hj
    | some t =>
      rw [ht] at hj
      simp only [Option.map_some, Option.some.injEq, Nat.zero_add] at hj
      rw [← hj]; rfl

/-- C107. A dump is one call exactly when the buffer has at most 406 bytes; a longer one begins with the text of its first 407 bytes in a
call of its own. -/
theorem C107_one_call (room : Nat → Nat) (cache0 buf : List Byte) (n : Nat) (upper : Bool) (hc : cache0.length = 1024)
    (hn : n ≤ buf.length) :
    ∃ calls, HexStream.hexDump room cache0 buf n upper = .ok calls ∧
      (n ≤ 406 → texts calls = [HexSpec.dump upper (buf.take n)]) ∧
      (406 < n → ∃ rest, texts calls = HexSpec.dumpFrom upper 0 (buf.take 407) :: rest ∧ rest ≠ []) := by
  obtain ⟨calls, gs, last, h1, h2, h3, h4, h5, h6, _⟩ := C107_calls room cache0 buf n upper hc hn
  have htot : (gs.flatten ++ last).flatten.length = 2 * n + (n - 1) / 4 + (n - 1) / 8 + (n - 1) / 16 + (n - 1) / 32 := by
    rw [h3, tokens_flatten upper buf n hn, take_length upper buf n hn]
  refine ⟨calls, h1, ?_, ?_⟩
  · intro hle
    cases gs with
    | nil =>
      rw [h2] at h6 ⊢
      simpa using h6
    | cons g gs =>
      have := (h4 g (by simp)).1
      simp only [List.flatten_cons, List.append_assoc, List.flatten_append, List.length_append] at htot
      omega
  · intro hgt
    cases gs with
    | nil =>
      simp only [List.flatten_nil, List.nil_append] at htot
      omega
    | cons g gs =>
      refine ⟨gs.map List.flatten ++ [last.flatten ++ [chr '\n']], ?_, by simp⟩
      rw [h2]
      obtain ⟨a1, a2, a3⟩ := h4 g (by simp)
      -- the group is the first `g.length` tokens
      have hg : g = (List.range g.length).map (token upper buf) ∧ g.length ≤ n := by
        have hpre := congrArg (List.take g.length) h3
        rw [List.flatten_cons, List.append_assoc, List.take_left, ← List.map_take, List.take_range] at hpre
        have hl := congrArg List.length hpre
        simp only [List.length_map, List.length_range] at hl
        rw [← hl] at hpre
        exact ⟨hpre, by omega⟩
      obtain ⟨hg1, hg2⟩ := hg
      have hl1 : g.flatten.length = 2 * g.length + (g.length - 1) / 4 + (g.length - 1) / 8 + (g.length - 1) / 16 +
          (g.length - 1) / 32 := by
        rw [← take_length upper buf g.length (by omega), ← tokens_flatten upper buf g.length (by omega), ← hg1]
      have hpos : 0 < g.length := by
        rcases g with _ | ⟨t, g⟩
        · simp at a1
        · simp
      obtain ⟨m, hm⟩ : ∃ m, g.length = m + 1 := ⟨g.length - 1, by omega⟩
      have hdl : g.dropLast = (List.range m).map (token upper buf) := by
        rw [hg1, hm, List.range_succ, List.map_append, List.map_singleton, List.dropLast_concat]
      have hl2 : g.dropLast.flatten.length = 2 * m + (m - 1) / 4 + (m - 1) / 8 + (m - 1) / 16 + (m - 1) / 32 := by
        rw [hdl, tokens_flatten upper buf _ (by omega), take_length upper buf _ (by omega)]
      have h407 : g.length = 407 := by
        rw [hl1, hm] at a1
        rw [hl2] at a3
        rw [hm, group_size m a1 a3]
      have hfin : g.flatten = dumpFrom upper 0 (buf.take 407) := by
        rw [hg1, h407, tokens_flatten upper buf 407 (by omega)]
      rw [List.map_cons, List.cons_append, hfin]

/-- C107. Losses: what arrives is, piece by piece, the beginning of the piece that the stream had room for.  All of the dump arrives exactly
when every call was complete; the function returns nothing and looks at no result, so only the stream's error indicator tells. -/
theorem C107_losses (room : Nat → Nat) (cache0 buf : List Byte) (n : Nat) (upper : Bool) (hc : cache0.length = 1024)
    (hn : n ≤ buf.length) :
    ∃ calls, HexStream.hexDump room cache0 buf n upper = .ok calls ∧
      (∀ c ∈ calls, c.arrived <+: c.data) ∧
      (arrived calls).length ≤ (HexSpec.dump upper (buf.take n)).length ∧
      (arrived calls = HexSpec.dump upper (buf.take n) ↔ ∀ c ∈ calls, c.complete = true) := by
  obtain ⟨calls, gs, last, h1, h2, h3, h4, h5, h6, h7⟩ := C107_calls room cache0 buf n upper hc hn
  have htook : ∀ c ∈ calls, c.took ≤ c.data.length := by
    intro c hm
    obtain ⟨j, hj⟩ := List.getElem?_of_mem hm
    have := h7 j c hj
    omega
  have hall : ∀ cs : List Call, (∀ c ∈ cs, c.took ≤ c.data.length) →
      (arrived cs).length ≤ (texts cs).flatten.length ∧
      ((arrived cs).length = (texts cs).flatten.length → ∀ c ∈ cs, c.complete = true) ∧
      ((∀ c ∈ cs, c.complete = true) → arrived cs = (texts cs).flatten) := by
    intro cs
    induction cs with
    | nil => intro _; simp [arrived, texts]
    | cons c cs ih =>
      intro hb
      obtain ⟨i1, i2, i3⟩ := ih (fun x hx => hb x (List.mem_cons_of_mem _ hx))
      have hb0 := hb c (by simp)
      have e1 : (arrived (c :: cs)).length = c.took + (arrived cs).length := by
        simp [arrived, Call.arrived, Nat.min_eq_left hb0]
      have e2 : (texts (c :: cs)).flatten.length = c.data.length + (texts cs).flatten.length := by
        simp [texts]
      refine ⟨by omega, ?_, ?_⟩
      · intro he x hx
        rcases List.mem_cons.1 hx with rfl | hx
        · simp only [Call.complete, decide_eq_true_eq]; omega
        · exact i2 (by omega) x hx
      · intro hco
        have hc0 := hco c (by simp)
        simp only [Call.complete, decide_eq_true_eq] at hc0
        have := i3 (fun x hx => hco x (List.mem_cons_of_mem _ hx))
        have e3 : arrived (c :: cs) = c.arrived ++ arrived cs := by simp [arrived]
        have e4 : (texts (c :: cs)).flatten = c.data ++ (texts cs).flatten := by simp [texts]
        rw [e3, e4, this, Call.arrived, hc0, List.take_length]
  obtain ⟨a1, a2, a3⟩ := hall calls htook
  refine ⟨calls, h1, fun c _ => List.take_prefix _ _, by rw [← h6]; exact a1, ?_, ?_⟩
  · intro he
    exact a2 (by rw [he, h6])
  · intro hco
    rw [a3 hco, h6]

/-- C107. Losses leave holes: a dump of more than 406 bytes whose first piece is lost arrives from the 408th byte on, although what was
printed is not a beginning of the dump; nothing stops the function after a failed call. -/
theorem C107_violated_hole (cache0 buf : List Byte) (n : Nat) (upper : Bool) (hc : cache0.length = 1024)
    (hn : n ≤ buf.length) (h406 : 406 < n) :
    ∃ calls, HexStream.hexDump (fun k => if k = 0 then 0 else 2000) cache0 buf n upper = .ok calls ∧
      HexSpec.dumpFrom upper 0 (buf.take 407) ++ arrived calls = HexSpec.dump upper (buf.take n) ∧ arrived calls ≠ [] ∧
      ¬ arrived calls <+: HexSpec.dump upper (buf.take n) := by
  obtain ⟨calls, gs, last, h1, h2, h3, h4, h5, h6, h7⟩ := C107_calls (fun k => if k = 0 then 0 else 2000) cache0 buf n upper hc hn
  obtain ⟨calls', g1, _, g2⟩ := C107_one_call (fun k => if k = 0 then 0 else 2000) cache0 buf n upper hc hn
  rw [h1, Res.ok.injEq] at g1
  subst g1
  obtain ⟨restT, g3, g4⟩ := g2 h406
  cases calls with
  | nil => simp [texts] at g3
  | cons c cs =>
    have hdata : c.data = dumpFrom upper 0 (buf.take 407) ∧ texts cs = restT := by
      simpa [texts] using g3
    have hc0 : c.arrived = [] := by
      have := h7 0 c rfl
      rw [Call.arrived, this]; simp
    have hlong : ∀ t ∈ texts (c :: cs), t.length ≤ 2000 := by
      intro t ht
      rw [h2, List.mem_append, List.mem_singleton] at ht
      rcases ht with ht | rfl
      · obtain ⟨g, hg, rfl⟩ := List.mem_map.1 ht
        have := h4 g hg
        omega
      · rw [List.length_append]; simp only [List.length_cons, List.length_nil]; omega
    have hcs : ∀ x ∈ cs, x.arrived = x.data := by
      intro x hx
      obtain ⟨j, hj⟩ := List.getElem?_of_mem hx
      have h8 := h7 (j + 1) x (by simpa using hj)
      have h9 := hlong x.data (List.mem_map.2 ⟨x, List.mem_cons_of_mem _ hx, rfl⟩)
      rw [if_neg (by omega), Nat.min_eq_right h9] at h8
      rw [Call.arrived, h8, List.take_length]
    have harr : arrived (c :: cs) = (texts cs).flatten := by
      rw [arrived, List.map_cons, hc0, List.flatten_cons, List.nil_append, texts, List.map_congr_left hcs]
    have hsum : dumpFrom upper 0 (buf.take 407) ++ arrived (c :: cs) = dump upper (buf.take n) := by
      rw [harr, ← h6, ← hdata.1]; simp [texts]
    obtain ⟨rest, r1, r2⟩ := after_407 upper (buf.take n)
    have hrest : arrived (c :: cs) = rest := by
      have h10 : (buf.take n).take 407 = buf.take 407 := by rw [List.take_take, Nat.min_eq_left (by omega)]
      rw [← hsum, h10] at r1
      exact List.append_cancel_left r1
    refine ⟨c :: cs, h1, hsum, ?_, ?_⟩
    · rw [hrest]; rintro rfl; simp at r2
    · rintro ⟨Y, hY⟩
      rw [hrest] at hY
      exact begin_ne upper (buf.take n) rest [10#8] Y (by rw [List.length_take]; omega) r2 hY.symm

/-- C107. Threads: every call of `fwrite` is atomic.  If several threads print dumps of at most 406 bytes each, then in every schedule
what comes out is whole dumps one after the other, those of a thread in its order: the texts of the calls are an interleaving of the
threads' dumps. -/
theorem C107_threads (threads : List (List Job)) (hdone : ∀ t ∈ threads, ∀ job ∈ t, job.Done)
    (hsmall : ∀ t ∈ threads, ∀ job ∈ t, job.buf.length ≤ 406)
    (out : List (List Byte)) (hout : Interleaving (threads.map fun t => (t.map fun job => texts job.calls).flatten) out) :
    Interleaving (threads.map fun t => t.map fun job => HexSpec.dump job.upper job.buf) out := by
  have : (threads.map fun t => (t.map fun job => texts job.calls).flatten) =
      threads.map fun t => t.map fun job => HexSpec.dump job.upper job.buf := by
    refine List.map_congr_left fun t ht => ?_
    have h1 : (t.map fun job => texts job.calls) = t.map fun job => [HexSpec.dump job.upper job.buf] := by
      refine List.map_congr_left fun d hd => ?_
      obtain ⟨room, cache0, hc, hr⟩ := hdone t ht d hd
      obtain ⟨calls, c1, c2, _⟩ := C107_one_call room cache0 d.buf d.buf.length d.upper hc (Nat.le_refl _)
      rw [hr, Res.ok.injEq] at c1
      rw [c1, c2 (hsmall t ht d hd), List.take_length]
    rw [h1]
    clear h1 ht
    induction t with
    | nil => rfl
    | cons d t ih => simp [ih]
  rw [← this]; exact hout

/-- C107. Threads with longer dumps: for any two buffers of more than 406 bytes there is a schedule in which the dumps come out mixed, so
that the output is neither the first dump followed by the second nor the other way round. -/
theorem C107_violated_mixed (cache0 a b : List Byte) (ua ub : Bool) (hc : cache0.length = 1024)
    (ha : 406 < a.length) (hb : 406 < b.length) (room room' : Nat → Nat) :
    ∃ ca cb out, HexStream.hexDump room cache0 a a.length ua = .ok ca ∧ HexStream.hexDump room' cache0 b b.length ub = .ok cb ∧
      Interleaving [texts ca, texts cb] out ∧
      out.flatten ≠ HexSpec.dump ua a ++ HexSpec.dump ub b ∧ out.flatten ≠ HexSpec.dump ub b ++ HexSpec.dump ua a := by
  obtain ⟨ca, a1, _, a2⟩ := C107_one_call room cache0 a a.length ua hc (Nat.le_refl _)
  obtain ⟨cb, b1, _, b2⟩ := C107_one_call room' cache0 b b.length ub hc (Nat.le_refl _)
  obtain ⟨ra, a3, _⟩ := a2 ha
  obtain ⟨rb, b3, _⟩ := b2 hb
  obtain ⟨resta, a4, a5⟩ := after_407 ua a
  obtain ⟨restb, b4, b5⟩ := after_407 ub b
  refine ⟨ca, cb, dumpFrom ua 0 (a.take 407) :: dumpFrom ub 0 (b.take 407) :: (ra ++ rb), a1, b1, ?_, ?_, ?_⟩
  · rw [a3, b3]
    exact .step _ 0 _ ra _ rfl (.step _ 1 _ rb _ rfl (interleaving_two ra rb))
  · intro he
    rw [a4, List.append_assoc] at he
    simp only [List.flatten_cons] at he
    exact begin_ne ub (b.take 407) resta _ _ (by rw [List.length_take]; omega) a5 (List.append_cancel_left he)
  · intro he
    rw [b4, List.append_assoc] at he
    simp only [List.flatten_cons] at he
    have hlen : (dumpFrom ua 0 (a.take 407)).length = (dumpFrom ub 0 (b.take 407)).length := by
      rw [take_length ua a 407 (by omega), take_length ub b 407 (by omega)]
    exact begin_ne ub (b.take 407) restb _ _ (by rw [List.length_take]; omega) b5 (List.append_inj he hlen).2
