import Verif.Model.Random
import Verif.Lemmas.Basic
/-! Property theorems C58 (random bytes) and C59 (cleansing): `src/random.c`, `src/cleanse.c`. -/
open Random

/-- C59. After `fingera_cleanse(mem, size)` each of the first `size` bytes has the same fixed value, whatever was there before, and
all others are as they were. -/
theorem C59_cleanse (mem : List Byte) (size : Nat) (h : size ≤ mem.length) :
    ∃ out, cleanse mem size = .ok out ∧ out.length = mem.length ∧
      (∀ i, i < size → out[i]? = some 0xCC#8) ∧ ∀ i, size ≤ i → out[i]? = mem[i]? := by
  refine ⟨List.replicate size 0xCC#8 ++ mem.drop size, ?_, ?_, ?_, ?_⟩
  · rw [cleanse, memset, if_pos (by omega), Nat.zero_add]; rfl
  · rw [List.length_append, List.length_replicate, List.length_drop]; omega
  · intro i hi
    rw [List.getElem?_append_left (by simpa using hi), List.getElem?_replicate, if_pos hi]
  · intro i hi
    rw [List.getElem?_append_right (by simpa using hi), List.length_replicate, List.getElem?_drop]
    congr 1; omega

/-- C59 (no trace). Two memories that agree outside the range are the same after cleansing: nothing of the old contents of the
range can be recovered. -/
theorem C59_no_trace (mem mem' : List Byte) (size : Nat) (h : mem.drop size = mem'.drop size) (hl : size ≤ mem.length)
    (hl' : size ≤ mem'.length) : cleanse mem size = cleanse mem' size := by
  rw [cleanse, cleanse, memset, memset, if_pos (by omega), if_pos (by omega), Nat.zero_add, h]; rfl

example : cleanse [1, 2, 3, 4] 3 = .ok [0xCC, 0xCC, 0xCC, 4] := by decide

theorem readLoop_zero (buf : List Byte) (rs : List Reply) : readLoop buf 0 rs = .ok (some (buf, rs)) := by
  rw [readLoop.eq_def]; rfl

theorem readLoop_bytes (buf bs : List Byte) (n : Nat) (rs : List Reply) (h : min bs.length (n+1) ≠ 0)
    (hb : n + 1 ≤ buf.length) :
    readLoop buf (n+1) (.bytes bs :: rs) =
      readLoop (bs.take (min bs.length (n+1)) ++ buf.drop (min bs.length (n+1))) (n + 1 - min bs.length (n+1)) rs := by
  rw [readLoop, if_neg (by omega)]
  simp only []
  rw [if_neg h, memcpy_ok _ _ _ _ (by omega) (by omega), Res.ok_bind, Nat.zero_add]; rfl

/-- C58 (proved part). If the first `read` delivers the whole request, exactly these bytes are in the buffer, and one `read` is
made.  Missing: replies that deliver less, see `C58_violated_short_read`. -/
theorem C58_full_read_partial (buf bs : List Byte) (size : Nat) (rs : List Reply) (hs : 0 < size) (hb : size ≤ buf.length)
    (hd : size ≤ bs.length) :
    osRandBytes ⟨true, .bytes bs :: rs⟩ buf size = .ok (some (bs.take size ++ buf.drop size, rs)) := by
  obtain ⟨n, rfl⟩ : ∃ n, size = n + 1 := ⟨size - 1, by omega⟩
  show readLoop _ _ _ = _
  rw [readLoop_bytes _ _ _ _ (by omega) hb, Nat.min_eq_right hd, Nat.sub_self, readLoop_zero]

/-- C58 (the part about errors and about how much is read). Whenever `fingera_os_rand_bytes` returns, `open` has succeeded, the
replies it consumed were all deliveries of at least one byte, and together they delivered exactly `size` bytes. -/
theorem C58_returns_only_after_delivery (os : Os) (buf out : List Byte) (size : Nat) (rest : List Reply) (hb : size ≤ buf.length)
    (h : osRandBytes os buf size = .ok (some (out, rest))) :
    os.opens = true ∧ out.length = buf.length ∧ ∃ chunks : List (List Byte), os.replies = chunks.map .bytes ++ rest ∧ [] ∉ chunks ∧
      size ≤ (chunks.map List.length).sum ∧ ((chunks.dropLast).map List.length).sum ≤ size := by
  obtain ⟨o, replies⟩ := os
  cases o with
  | false => cases h
  | true =>
    refine ⟨rfl, ?_⟩
    simp only [osRandBytes] at h
    replace h : readLoop buf size replies = .ok (some (out, rest)) := h
    induction replies generalizing buf size with
    | nil =>
      cases size with
      | zero => rw [readLoop_zero] at h; cases h; exact ⟨rfl, [], rfl, by simp, by simp, by simp⟩
      | succ n => rw [readLoop] at h; cases h
    | cons r rs ih =>
      cases size with
      | zero => rw [readLoop_zero] at h; cases h; exact ⟨rfl, [], rfl, by simp, by simp, by simp⟩
      | succ n =>
        cases r with
        | error => rw [readLoop] at h; cases h
        | bytes bs =>
          by_cases h0 : min bs.length (n+1) = 0
          · rw [readLoop, if_neg (by omega)] at h
            simp only [] at h
            rw [if_pos h0] at h; cases h
          · rw [readLoop_bytes _ _ _ _ h0 hb] at h
            have hl : (bs.take (min bs.length (n+1)) ++ buf.drop (min bs.length (n+1))).length = buf.length := by
              rw [List.length_append, List.length_take, List.length_drop]; omega
            obtain ⟨h1, chunks, h2, h3, h4, h5⟩ := ih _ _ (by rw [hl]; omega) h
            replace h2 : rs = chunks.map .bytes ++ rest := h2
            refine ⟨by rw [h1, hl], bs :: chunks, by simp only [h2, List.map_cons, List.cons_append], ?_, ?_, ?_⟩
            · rw [List.mem_cons, not_or]
              exact ⟨by rintro rfl; simp at h0, h3⟩
            · rw [List.map_cons, List.sum_cons]; omega
            · cases chunks with
              | nil => simp
              | cons c cs =>
                rw [List.dropLast_cons_of_ne_nil (by simp), List.map_cons, List.sum_cons]
                by_cases hz : n + 1 ≤ bs.length
                · exfalso
                  have e : n + 1 - min bs.length (n+1) = 0 := by omega
                  rw [e, readLoop_zero, Res.ok.injEq, Option.some.injEq, Prod.mk.injEq] at h
                  rw [← h.2] at h2
                  have := congrArg List.length h2
                  rw [List.length_append, List.length_map, List.length_cons] at this
                  omega
                · omega

/-- C58 (errors). A failing `open`, an error or an end of file before enough has been delivered end the process. -/
theorem C58_errors_are_fatal (os : Os) (buf : List Byte) (size : Nat) (chunks : List (List Byte)) (e : Reply) (rs : List Reply)
    (hb : size ≤ buf.length) (hs : (chunks.map List.length).sum < size) (hr : os.replies = chunks.map .bytes ++ e :: rs)
    (he : e = .error ∨ e = .bytes []) : osRandBytes os buf size = .abort := by
  obtain ⟨o, replies⟩ := os
  cases o with
  | false => rfl
  | true =>
    simp only at hr
    subst hr
    show readLoop _ _ _ = _
    induction chunks generalizing buf size with
    | nil =>
      obtain ⟨n, rfl⟩ : ∃ n, size = n + 1 := ⟨size - 1, by simp at hs; omega⟩
      rcases he with rfl | rfl
      · rw [List.map_nil, List.nil_append, readLoop]; rfl
      · rw [List.map_nil, List.nil_append, readLoop]; rfl
    | cons c cs ih =>
      rw [List.map_cons, List.sum_cons] at hs
      obtain ⟨n, rfl⟩ : ∃ n, size = n + 1 := ⟨size - 1, by omega⟩
      rw [List.map_cons, List.cons_append]
      by_cases h0 : min c.length (n+1) = 0
      · rw [readLoop, if_neg (by omega)]
        simp only []
        rw [if_pos h0]
      · rw [readLoop_bytes _ _ _ _ h0 hb]
        exact ih _ _ (by rw [List.length_append, List.length_take, List.length_drop]; omega) (by omega)

theorem C58_no_open (replies : List Reply) (buf : List Byte) (size : Nat) : osRandBytes ⟨false, replies⟩ buf size = .abort := rfl

theorem readLoop_tail (rs : List Reply) (buf : List Byte) (size m : Nat) (out : List Byte) (rest : List Reply)
    (hm : size ≤ m) (hb : m ≤ buf.length) (h : readLoop buf size rs = .ok (some (out, rest))) : out.drop m = buf.drop m := by
  induction rs generalizing buf size with
  | nil =>
    cases size with
    | zero => rw [readLoop_zero] at h; cases h; rfl
    | succ n => rw [readLoop] at h; cases h
  | cons r rs ih =>
    cases size with
    | zero => rw [readLoop_zero] at h; cases h; rfl
    | succ n =>
      cases r with
      | error => rw [readLoop] at h; cases h
      | bytes bs =>
        by_cases h0 : min bs.length (n+1) = 0
        · rw [readLoop, if_neg (by omega)] at h
          simp only [] at h
          rw [if_pos h0] at h; cases h
        · rw [readLoop_bytes _ _ _ _ h0 (by omega)] at h
          have hl : (bs.take (min bs.length (n+1))).length = min bs.length (n+1) := by rw [List.length_take]; omega
          rw [ih _ _ (by omega) (by rw [List.length_append, hl, List.length_drop]; omega) h, List.drop_append, List.drop_drop, hl,
            List.drop_eq_nil_of_le (by rw [hl]; omega), List.nil_append]
          congr 1; omega

/-- C58 does not hold: whenever the first `read` delivers less than asked (as the kernel may) and the function nevertheless
returns, the last byte of the buffer (and all from the longest reply on) is what was there before the call, not a random
byte: the loop does not advance its pointer. -/
theorem C58_violated_short_read (bs buf out : List Byte) (size : Nat) (rs rest : List Reply) (hb : size ≤ buf.length)
    (h0 : bs ≠ []) (hshort : bs.length < size) (h : osRandBytes ⟨true, .bytes bs :: rs⟩ buf size = .ok (some (out, rest))) :
    out[size - 1]? = buf[size - 1]? ∧ out.drop (max bs.length (size - bs.length)) = buf.drop (max bs.length (size - bs.length)) := by
  have hpos : 0 < bs.length := List.length_pos_iff.2 h0
  obtain ⟨n, rfl⟩ : ∃ n, size = n + 1 := ⟨size - 1, by omega⟩
  replace h : readLoop buf (n+1) (.bytes bs :: rs) = .ok (some (out, rest)) := h
  have hmin : min bs.length (n+1) = bs.length := by omega
  rw [readLoop_bytes _ _ _ _ (by omega) hb, hmin, List.take_length] at h
  have key : ∀ m, n + 1 - bs.length ≤ m → bs.length ≤ m → m ≤ buf.length → out.drop m = buf.drop m := by
    intro m h1 h2 h3
    rw [readLoop_tail rs _ _ m out rest h1 (by rw [List.length_append, List.length_drop]; omega) h, List.drop_append, List.drop_drop,
      List.drop_eq_nil_of_le h2, List.nil_append]
    congr 1; omega
  refine ⟨?_, key _ (by omega) (by omega) (by omega)⟩
  have := congrArg (·[0]?) (key n (by omega) (by omega) (by omega))
  simp only [List.getElem?_drop, Nat.add_zero] at this
  exact this

/-- A witness: four bytes wanted, delivered two by two; the buffer ends with its old contents. -/
theorem C58_violated_witness :
    osRandBytes ⟨true, [.bytes [1, 2], .bytes [3, 4]]⟩ [0xAA, 0xAA, 0xAA, 0xAA] 4 = .ok (some ([3, 4, 0xAA, 0xAA], [])) := by decide +kernel
