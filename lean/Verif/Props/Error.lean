import Verif.Model.Error
import Verif.Spec.Report
import Verif.Props.RandomOs
/-!
C86: a failing random source ends the process with a report on `stderr`.
-/
open Error ReportSpec
open Random (Os Reply Win)

namespace Error

theorem digitChar_value (d : Nat) (h : d < 16) : HexSpec.value? (chr d.digitChar) = some d := by
  have : ∀ d : Fin 16, HexSpec.value? (chr d.1.digitChar) = some d.1 := by decide +kernel
  exact this ⟨d, h⟩

theorem digitChar_zero (d : Nat) (h : d < 16) (h0 : chr d.digitChar = 48#8) : d = 0 := by
  have : ∀ d : Fin 16, chr d.1.digitChar = 48#8 → d.1 = 0 := by decide +kernel
  exact this ⟨d, h⟩ h0

theorem number_append (base : Nat) (ds : List Byte) (c : Byte) :
    number base (ds ++ [c]) = number base ds * base + (HexSpec.value? c).getD 0 := by
  rw [number, List.foldl_append]; rfl

/-- The digits of the model are the usual numeral. -/
theorem numeral (base : Nat) (hb : 1 < base) (hb' : base ≤ 16) (n : Nat) : IsNumeral base ((Nat.toDigits base n).map chr) n := by
  induction n using Nat.strongRecOn with
  | _ n ih =>
    by_cases h : n < base
    · rw [Nat.toDigits_of_lt_base h]
      refine ⟨by simp, ?_, fun _ => rfl, ?_⟩
      · intro c hc
        rw [List.map_singleton, List.mem_singleton] at hc
        exact ⟨n, by rw [hc]; exact digitChar_value n (by omega), h⟩
      · rw [List.map_singleton, number, List.foldl_cons, List.foldl_nil, digitChar_value n (by omega)]
        simp
    · have hlt : n / base < n := Nat.div_lt_self (by omega) hb
      have hpos : 0 < n / base := Nat.div_pos (by omega) (by omega)
      have hmod : n % base < base := Nat.mod_lt _ (by omega)
      obtain ⟨h1, h2, h3, h4⟩ := ih _ hlt
      rw [Nat.toDigits_of_base_le hb (by omega), List.map_append, List.map_singleton]
      refine ⟨by simp, ?_, ?_, ?_⟩
      · intro c hc
        rw [List.mem_append, List.mem_singleton] at hc
        rcases hc with hc | hc
        · exact h2 c hc
        · exact ⟨n % base, by rw [hc]; exact digitChar_value _ (by omega), hmod⟩
      · intro hh
        exfalso
        obtain ⟨x, xs, hx⟩ := List.exists_cons_of_ne_nil h1
        rw [hx] at hh h3 h4
        rw [List.cons_append, List.head?_cons] at hh
        have := h3 hh
        rw [List.length_cons] at this
        have hxs : xs = [] := List.length_eq_zero_iff.mp (by omega)
        rw [hxs, number, List.foldl_cons, List.foldl_nil, Option.some.inj hh] at h4
        simp [HexSpec.value?] at h4
        omega
      · rw [number_append, h4, digitChar_value _ (by omega)]
        have := Nat.div_add_mod n base
        rw [Option.getD_some, Nat.mul_comm]
        omega

theorem isSigned (v : Int) : IsSigned (signed v) v := by
  rw [signed]
  by_cases h : v < 0
  · rw [if_pos h]
    exact .inr ⟨h, decimal v.natAbs, rfl, by rw [show (-v).toNat = v.natAbs by omega]; exact numeral 10 (by omega) (by omega) _⟩
  · rw [if_neg h]
    exact .inl ⟨by omega, by rw [show v.toNat = v.natAbs by omega]; exact numeral 10 (by omega) (by omega) _⟩

theorem parse_plain (fs gs : List Byte) (h : chr '%' ∉ fs) : parse (fs ++ gs) none = fs.map .lit ++ parse gs none := by
  induction fs with
  | nil => rfl
  | cons c fs ih =>
    rw [List.mem_cons, not_or] at h
    rw [List.cons_append, parse, if_neg (fun e => h.1 e.symm), ih h.2]; rfl

theorem fill_plain (fs : List Byte) (ps : List Piece) (as : List Arg) (r : List Byte) (h : fill ps as = .ok r) :
    fill (fs.map .lit ++ ps) as = .ok (fs ++ r) := by
  induction fs with
  | nil => exact h
  | cons c fs ih => rw [List.map_cons, List.cons_append, fill, ih]; rfl

/-- A message without conversions is printed as it is. -/
theorem printf_plain (fs : List Byte) (as : List Arg) (h : chr '%' ∉ fs) : printf fs as = .ok fs := by
  have h1 : parse fs none = fs.map .lit ++ [] := by
    have := parse_plain fs [] h
    rwa [List.append_nil fs] at this
  have := fill_plain fs [] as [] rfl
  rw [printf, h1, this, List.append_nil]

theorem printf_place (func file : List Byte) (line : Int) :
    printf (cstr " (%s)(%s:%ld)\n") [.str func, .str file, .long line] =
      .ok (cstr " (" ++ func ++ cstr ")(" ++ file ++ cstr ":" ++ signed line ++ cstr ")\n") := by
  rw [printf, show parse (cstr " (%s)(%s:%ld)\n") none = (cstr " (").map .lit ++ (.conv .s :: ((cstr ")(").map .lit ++ (.conv .s ::
    ((cstr ":").map .lit ++ (.conv .ld :: ((cstr ")\n").map .lit ++ [])))))) from by decide +kernel]
  rw [fill_plain _ _ _ (func ++ (cstr ")(" ++ (file ++ (cstr ":" ++ (signed line ++ (cstr ")\n" ++ [])))))) ?_]
  · simp only [List.append_assoc, List.append_nil]
  rw [fill, convert, Res.ok_bind, fill_plain _ _ _ (file ++ (cstr ":" ++ (signed line ++ (cstr ")\n" ++ [])))) ?_]
  · rfl
  rw [fill, convert, Res.ok_bind, fill_plain _ _ _ (signed line ++ (cstr ")\n" ++ [])) ?_]
  · rfl
  rw [fill, convert, Res.ok_bind, fill_plain _ _ _ [] rfl]
  rfl

theorem printf_errno (t : List Byte) (e : Int) :
    printf (cstr "\t%s(%d)\n") [.str t, .int e] = .ok (cstr "\t" ++ t ++ cstr "(" ++ signed e ++ cstr ")\n") := by
  rw [printf, show parse (cstr "\t%s(%d)\n") none = (cstr "\t").map .lit ++ (.conv .s :: ((cstr "(").map .lit ++ (.conv .d ::
    ((cstr ")\n").map .lit ++ [])))) from by decide +kernel]
  rw [fill_plain _ _ _ (t ++ (cstr "(" ++ (signed e ++ (cstr ")\n" ++ [])))) ?_]
  · simp only [List.append_assoc, List.append_nil]
  rw [fill, convert, Res.ok_bind, fill_plain _ _ _ (signed e ++ (cstr ")\n" ++ [])) ?_]
  · rfl
  rw [fill, convert, Res.ok_bind, fill_plain _ _ _ [] rfl]
  rfl

theorem printf_code (t : List Byte) (n : Nat) :
    printf (cstr "\t%s ErrorCode(%08lx)\n") [.str t, .ulong n] = .ok (cstr "\t" ++ t ++ cstr " ErrorCode(" ++ hex08 n ++ cstr ")\n") := by
  rw [printf, show parse (cstr "\t%s ErrorCode(%08lx)\n") none = (cstr "\t").map .lit ++ (.conv .s :: ((cstr " ErrorCode(").map .lit ++
    (.conv .x08l :: ((cstr ")\n").map .lit ++ [])))) from by decide +kernel]
  rw [fill_plain _ _ _ (t ++ (cstr " ErrorCode(" ++ (hex08 n ++ (cstr ")\n" ++ [])))) ?_]
  · simp only [List.append_assoc, List.append_nil]
  rw [fill, convert, Res.ok_bind, fill_plain _ _ _ (hex08 n ++ (cstr ")\n" ++ [])) ?_]
  · rfl
  rw [fill, convert, Res.ok_bind, fill_plain _ _ _ [] rfl]
  rfl

end Error

/-- The line about `errno`: nothing for 0, else the system's text and the number. -/
def ErrnoLine (sys : Sys) (line : List Byte) : Prop :=
  if sys.errno = 0 then line = []
  else ∃ e, IsSigned e sys.errno ∧ line = cstr "\t" ++ sys.strerror sys.errno ++ cstr "(" ++ e ++ cstr ")\n"

theorem errno_line (sys : Sys) : ∃ l, ErrnoLine sys l ∧ errnoText sys = .ok l := by
  by_cases h : sys.errno = 0
  · exact ⟨[], by rw [ErrnoLine, if_pos h], by rw [errnoText, if_neg (fun e => e h)]⟩
  · exact ⟨_, by rw [ErrnoLine, if_neg h]; exact ⟨_, isSigned _, rfl⟩, by rw [errnoText, if_pos h, printf_errno]⟩

theorem fatal_eq (sys : Sys) (func file msg what : List Byte) (line : Int) (args : List Arg) (h : printf msg args = .ok what) :
    ∃ l, ErrnoLine sys l ∧ fatal sys func file line msg args =
      .ok ⟨cstr "FATAL " ++ what ++ cstr " (" ++ func ++ cstr ")(" ++ file ++ cstr ":" ++ signed line ++ cstr ")\n" ++ l, -1⟩ := by
  obtain ⟨l, h1, h2⟩ := errno_line sys
  refine ⟨l, h1, ?_⟩
  rw [fatal, printf_plain _ _ (by decide), Res.ok_bind, h, Res.ok_bind, printf_place, Res.ok_bind, h2]
  simp only [Res.ok_bind, Res.pure_eq, List.append_assoc]

/-- The numerals in reports are the usual ones. -/
theorem C86_numerals (v : Int) (n : Nat) (h : n < 2 ^ 32) :
    IsSigned (signed v) v ∧ (hex08 n).length = 8 ∧ ∃ k ds, hex08 n = List.replicate k 48#8 ++ ds ∧ IsNumeral 16 ds n := by
  refine ⟨isSigned v, ?_, _, _, rfl, numeral 16 (by omega) (by omega) n⟩
  have : (Nat.toDigits 16 n).length ≤ 8 := (Nat.length_toDigits_le_iff (by omega) (by omega)).mpr (by omega)
  rw [hex08, List.length_append, List.length_replicate, List.length_map]
  omega

/-- C86, the device cannot be opened: the process ends with status −1 and this on `stderr`. -/
theorem C86_unix_open (sys : Sys) (file : List Byte) (replies : List Reply) (buf : List Byte) (size : Nat) :
    ∃ l, ErrnoLine sys l ∧ Error.osRandBytes sys file ⟨false, replies⟩ buf size = .ok (some (.exited
      ⟨cstr "FATAL open /dev/urandom (fingera_os_rand_bytes)(" ++ file ++ cstr ":57)\n" ++ l, -1⟩)) := by
  obtain ⟨l, h1, h2⟩ := fatal_eq sys func file (cstr "open /dev/urandom") _ 57 [] (printf_plain _ _ (by decide))
  refine ⟨l, h1, ?_⟩
  simp only [Error.osRandBytes, Bool.not_false, if_true]
  rw [h2, Res.ok_bind, Res.pure_eq]
  simp only [List.append_assoc]
  rw [show cstr ":57)\n" = cstr ":" ++ (signed 57 ++ cstr ")\n") from by decide +kernel]
  simp only [← List.append_assoc]
  rw [show cstr "FATAL open /dev/urandom (fingera_os_rand_bytes)(" =
    cstr "FATAL " ++ cstr "open /dev/urandom" ++ cstr " (" ++ func ++ cstr ")(" from by decide +kernel]

theorem readLoop_fails (sys : Sys) (file : List Byte) (e : Reply) (num : List Byte)
    (he : (e = .error ∧ num = cstr "-1") ∨ (e = .bytes [] ∧ num = cstr "0")) (rs : List Reply) (chunks : List (List Byte)) :
    ∀ (buf : List Byte) (size : Nat), size ≤ buf.length → (chunks.map List.length).sum < size → [] ∉ chunks →
    ∃ l, ErrnoLine sys l ∧ Error.readLoop sys file buf size (chunks.map .bytes ++ e :: rs) = .ok (some (.exited
      ⟨cstr "FATAL read /dev/urandom " ++ num ++ cstr " (fingera_os_rand_bytes)(" ++ file ++ cstr ":62)\n" ++ l, -1⟩)) := by
  induction chunks with
  | nil =>
    intro buf size _ hs _
    have hs0 : size ≠ 0 := by simp at hs; omega
    have key : ∀ v : Int, num = signed v → ∃ l, ErrnoLine sys l ∧
        (do let e ← fatal sys func file 62 (cstr "read /dev/urandom %d") [.int v]
            pure (some (.exited e)) : Res (Option (Outcome (List Byte × List Reply)))) = .ok (some (.exited
          ⟨cstr "FATAL read /dev/urandom " ++ num ++ cstr " (fingera_os_rand_bytes)(" ++ file ++ cstr ":62)\n" ++ l, -1⟩)) := by
      intro v hv
      obtain ⟨l, h1, h2⟩ := fatal_eq sys func file (cstr "read /dev/urandom %d") (cstr "read /dev/urandom " ++ num) 62 [.int v] (by
        rw [printf, show parse (cstr "read /dev/urandom %d") none = (cstr "read /dev/urandom ").map .lit ++ [.conv .d] from by decide +kernel,
          fill_plain _ _ _ (signed v) (by simp [fill, convert]), hv])
      refine ⟨l, h1, ?_⟩
      rw [h2, Res.ok_bind, Res.pure_eq, show cstr ":62)\n" = cstr ":" ++ signed 62 ++ cstr ")\n" from by decide +kernel,
        show cstr "FATAL read /dev/urandom " = cstr "FATAL " ++ cstr "read /dev/urandom " from by decide +kernel,
        show cstr " (fingera_os_rand_bytes)(" = cstr " (" ++ func ++ cstr ")(" from by decide +kernel]
      simp only [List.append_assoc]
    rcases he with ⟨rfl, h⟩ | ⟨rfl, h⟩
    · obtain ⟨l, h1, h2⟩ := key (-1) (h.trans (by decide +kernel))
      refine ⟨l, h1, ?_⟩
      rw [Error.readLoop.eq_def, if_neg hs0]
      exact h2
    · obtain ⟨l, h1, h2⟩ := key 0 (h.trans (by decide +kernel))
      refine ⟨l, h1, ?_⟩
      rw [Error.readLoop.eq_def, if_neg hs0]
      exact h2
  | cons c cs ih =>
    intro buf size hb hs hne
    rw [List.mem_cons, not_or] at hne
    have hc : c.length ≠ 0 := fun h => hne.1 (List.length_eq_zero_iff.mp h).symm
    rw [List.map_cons, List.sum_cons] at hs
    have hmin : min c.length size = c.length := by omega
    rw [List.map_cons, List.cons_append, Error.readLoop.eq_def, if_neg (by omega)]
    simp only [hmin, if_neg hc]
    rw [memcpy_ok _ _ _ _ (Nat.le_refl _) (by omega), Res.ok_bind]
    exact ih _ _ (by simp only [List.length_append, List.length_take, List.length_drop]; omega) (by omega) hne.2

/-- C86, a `read` fails or meets the end of the file, after any number of successful ones. -/
theorem C86_unix_read (sys : Sys) (file buf : List Byte) (size : Nat) (chunks : List (List Byte)) (e : Reply) (rs : List Reply)
    (num : List Byte) (hb : size ≤ buf.length) (hs : (chunks.map List.length).sum < size) (hc : [] ∉ chunks)
    (he : (e = .error ∧ num = cstr "-1") ∨ (e = .bytes [] ∧ num = cstr "0")) :
    ∃ l, ErrnoLine sys l ∧ Error.osRandBytes sys file ⟨true, chunks.map .bytes ++ e :: rs⟩ buf size = .ok (some (.exited
      ⟨cstr "FATAL read /dev/urandom " ++ num ++ cstr " (fingera_os_rand_bytes)(" ++ file ++ cstr ":62)\n" ++ l, -1⟩)) :=
  readLoop_fails sys file e num he rs chunks buf size hb hs hc

theorem fatal_exits (sys : Sys) (file msg what : List Byte) (line : Int) (args : List Arg) (h : printf msg args = .ok what) :
    ∃ e, fatal sys func file line msg args = .ok e ∧ e.status = -1 := by
  obtain ⟨l, _, h2⟩ := fatal_eq sys func file msg what line args h
  exact ⟨_, h2, rfl⟩

theorem printf_read (v : Int) : printf (cstr "read /dev/urandom %d") [.int v] = .ok (cstr "read /dev/urandom " ++ signed v) := by
  rw [printf, show parse (cstr "read /dev/urandom %d") none = (cstr "read /dev/urandom ").map .lit ++ [.conv .d] from by decide +kernel,
    fill_plain _ _ _ (signed v) (by simp [fill, convert])]

/-- How the reporting run relates to the run of `Model/Random` (there a report is `abort`). -/
def SameRun (r : Res (Option (List Byte × List Reply))) (s : Res (Option (Outcome (List Byte × List Reply)))) : Prop :=
  match r with
  | .ok none => s = .ok none
  | .ok (some x) => s = .ok (some (.returned x))
  | .ub => s = .ub
  | .abort => ∃ e, s = .ok (some (.exited e)) ∧ e.status = -1

theorem readLoop_same (sys : Sys) (file : List Byte) (replies : List Reply) : ∀ (buf : List Byte) (size : Nat),
    SameRun (Random.readLoop buf size replies) (Error.readLoop sys file buf size replies) := by
  have stop : ∀ v : Int, SameRun .abort
      (do let e ← fatal sys func file 62 (cstr "read /dev/urandom %d") [.int v]
          pure (some (.exited e)) : Res (Option (Outcome (List Byte × List Reply)))) := by
    intro v
    obtain ⟨e, h1, h2⟩ := fatal_exits sys file _ _ 62 _ (printf_read v)
    exact ⟨e, by rw [h1]; rfl, h2⟩
  induction replies with
  | nil =>
    intro buf size
    rw [Random.readLoop.eq_def, Error.readLoop.eq_def]
    by_cases h : size = 0
    · rw [if_pos h, if_pos h]; rfl
    · rw [if_neg h, if_neg h]; rfl
  | cons r rs ih =>
    intro buf size
    rw [Random.readLoop.eq_def, Error.readLoop.eq_def]
    by_cases h : size = 0
    · rw [if_pos h, if_pos h]; rfl
    rw [if_neg h, if_neg h]
    cases r with
    | error => exact stop (-1)
    | bytes bs =>
      simp only []
      by_cases h0 : min bs.length size = 0
      · rw [if_pos h0, if_pos h0]; exact stop 0
      · rw [if_neg h0, if_neg h0]
        by_cases hb : min bs.length size ≤ bs.length ∧ 0 + min bs.length size ≤ buf.length
        · rw [memcpy_ok _ _ _ _ hb.1 hb.2]
          exact ih _ _
        · rw [memcpy, if_neg hb]; rfl

/-- C86: when nothing fails the reports change nothing, and whenever `Model/Random` gives up, the process ends with status −1. -/
theorem C86_unix_same (sys : Sys) (file : List Byte) (os : Os) (buf : List Byte) (size : Nat) :
    SameRun (Random.osRandBytes os buf size) (Error.osRandBytes sys file os buf size) := by
  obtain ⟨opens, rs⟩ := os
  cases opens with
  | true => exact readLoop_same sys file rs buf size
  | false =>
    obtain ⟨l, _, h⟩ := C86_unix_open sys file rs buf size
    exact ⟨_, h, rfl⟩

/-- The line about `GetLastError()`: nothing for 0, else the system's text and the code as eight hexadecimal digits. -/
def LastErrorLine (sys : WinSys) (line : List Byte) : Prop :=
  if sys.lastError = 0 then line = []
  else ∃ t c, sys.formatMessage sys.lastError = some t ∧ c.length = 8 ∧ (∃ k ds, c = List.replicate k 48#8 ++ ds ∧ IsNumeral 16 ds sys.lastError) ∧
    line = cstr "\t" ++ t ++ cstr " ErrorCode(" ++ c ++ cstr ")\n"

/-- The system has a text for the last error. -/
def HasText (sys : WinSys) : Prop := sys.lastError < 2 ^ 32 ∧ (sys.lastError ≠ 0 → ∃ t, sys.formatMessage sys.lastError = some t)

theorem lastError_line (sys : WinSys) (h : HasText sys) : ∃ l, LastErrorLine sys l ∧ lastErrorText sys = .ok l := by
  by_cases h0 : sys.lastError = 0
  · exact ⟨[], by rw [LastErrorLine, if_pos h0], by rw [lastErrorText, if_neg (fun e => e h0)]⟩
  · obtain ⟨t, ht⟩ := h.2 h0
    obtain ⟨_, h1, h2⟩ := C86_numerals 0 sys.lastError h.1
    refine ⟨cstr "\t" ++ t ++ cstr " ErrorCode(" ++ hex08 sys.lastError ++ cstr ")\n", ?_, ?_⟩
    · rw [LastErrorLine, if_neg h0]
      exact ⟨t, _, ht, h1, h2, rfl⟩
    · rw [lastErrorText, if_pos h0, ht]
      exact printf_code _ _

theorem fatalWin_eq (sys : WinSys) (func file msg what : List Byte) (line : Int) (args : List Arg) (h : printf msg args = .ok what)
    (ht : HasText sys) :
    ∃ l l', ErrnoLine sys.toSys l ∧ LastErrorLine sys l' ∧ fatalWin sys func file line msg args =
      .ok ⟨cstr "FATAL " ++ what ++ cstr " (" ++ func ++ cstr ")(" ++ file ++ cstr ":" ++ signed line ++ cstr ")\n" ++ l ++ l', -1⟩ := by
  obtain ⟨l, h1, h2⟩ := errno_line sys.toSys
  obtain ⟨l', h3, h4⟩ := lastError_line sys ht
  refine ⟨l, l', h1, h3, ?_⟩
  rw [fatalWin, printf_plain _ _ (by decide), Res.ok_bind, h, Res.ok_bind, printf_place, Res.ok_bind, h2, Res.ok_bind, h4]
  simp only [Res.ok_bind, Res.pure_eq, List.append_assoc]

theorem fatalWin_unknown (sys : WinSys) (func file msg : List Byte) (line : Int) (args : List Arg) (h0 : sys.lastError ≠ 0)
    (h : sys.formatMessage sys.lastError = none) (hp : printf msg args ≠ .abort) : fatalWin sys func file line msg args = .ub := by
  obtain ⟨l, _, h2⟩ := errno_line sys.toSys
  rw [fatalWin, printf_plain _ _ (by decide), Res.ok_bind]
  cases hm : printf msg args with
  | ok what =>
    rw [Res.ok_bind, printf_place, Res.ok_bind, h2, Res.ok_bind, lastErrorText, if_pos h0, h]
    rfl
  | ub => rfl
  | abort => exact absurd hm hp

/-- C86 on Windows before Vista: the same report, with a line for `GetLastError()`, provided the system has a text for its code.  Otherwise:
`C86_violated_windows_unknown_error`. -/
theorem C86_windows_report_partial (sys : WinSys) (file : List Byte) (w : Win) (buf : List Byte) (size : Nat) (ht : HasText sys) :
    ∃ l l', ErrnoLine sys.toSys l ∧ LastErrorLine sys l' ∧
      (w.provider = none → Error.cryptRandBytes sys file w buf size = .ok (.exited
        ⟨cstr "FATAL CryptAcquireContextW (fingera_os_rand_bytes)(" ++ file ++ cstr ":39)\n" ++ l ++ l', -1⟩)) ∧
      (∀ p, w.provider = some p → w.generator (size % 2 ^ 32) = none → Error.cryptRandBytes sys file w buf size = .ok (.exited
        ⟨cstr "FATAL CryptGenRandom (fingera_os_rand_bytes)(" ++ file ++ cstr ":42)\n" ++ l ++ l', -1⟩)) := by
  obtain ⟨l, h1, h2⟩ := errno_line sys.toSys
  obtain ⟨l', h3, h4⟩ := lastError_line sys ht
  have go : ∀ (msg : List Byte) (line : Int), chr '%' ∉ msg → fatalWin sys func file line msg [] =
      .ok ⟨cstr "FATAL " ++ msg ++ cstr " (" ++ func ++ cstr ")(" ++ file ++ cstr ":" ++ signed line ++ cstr ")\n" ++ l ++ l', -1⟩ := by
    intro msg line hm
    rw [fatalWin, printf_plain _ _ (by decide), Res.ok_bind, printf_plain _ _ hm, Res.ok_bind, printf_place, Res.ok_bind, h2, Res.ok_bind, h4]
    simp only [Res.ok_bind, Res.pure_eq, List.append_assoc]
  refine ⟨l, l', h1, h3, fun hp => ?_, fun p hp hg => ?_⟩
  · rw [Error.cryptRandBytes, hp]
    simp only []
    rw [go _ 39 (by decide), Res.ok_bind, Res.pure_eq, show cstr ":39)\n" = cstr ":" ++ signed 39 ++ cstr ")\n" from by decide +kernel,
      show cstr "FATAL CryptAcquireContextW (fingera_os_rand_bytes)(" =
        cstr "FATAL " ++ cstr "CryptAcquireContextW" ++ cstr " (" ++ func ++ cstr ")(" from by decide +kernel]
    simp only [List.append_assoc]
  · rw [Error.cryptRandBytes, hp]
    simp only [hg]
    rw [go _ 42 (by decide), Res.ok_bind, Res.pure_eq, show cstr ":42)\n" = cstr ":" ++ signed 42 ++ cstr ")\n" from by decide +kernel,
      show cstr "FATAL CryptGenRandom (fingera_os_rand_bytes)(" =
        cstr "FATAL " ++ cstr "CryptGenRandom" ++ cstr " (" ++ func ++ cstr ")(" from by decide +kernel]
    simp only [List.append_assoc]

/-- C86 is violated on Windows when `FormatMessageA` has no text for the last error: an uninitialised pointer is printed and freed. -/
theorem C86_violated_windows_unknown_error (sys : WinSys) (file : List Byte) (w : Win) (buf : List Byte) (size : Nat)
    (h0 : sys.lastError ≠ 0) (h : sys.formatMessage sys.lastError = none)
    (hw : w.provider = none ∨ w.generator (size % 2 ^ 32) = none) : Error.cryptRandBytes sys file w buf size = .ub := by
  have go : ∀ (msg : List Byte) (line : Int), chr '%' ∉ msg → fatalWin sys func file line msg [] = .ub := fun msg line hm =>
    fatalWin_unknown sys func file msg line [] h0 h (by rw [printf_plain _ _ hm]; nofun)
  rw [Error.cryptRandBytes]
  cases hp : w.provider with
  | none => simp only []; rw [go _ 39 (by decide)]; rfl
  | some p =>
    rcases hw with hw | hw
    · rw [hp] at hw; cases hw
    · simp only [hw]; rw [go _ 42 (by decide)]; rfl

/-- C86 is violated with `BCryptGenRandom`: every failure is reported with `%lu` for an `unsigned int`, which is undefined. -/
theorem C86_violated_bcrypt_format (sys : WinSys) (file : List Byte) (status : Nat) (w : Win) (buf : List Byte) (size : Nat)
    (hw : w.provider = none ∨ w.generator (size % 2 ^ 32) = none) : Error.bcryptRandBytes sys file status w buf size = .ub := by
  have go : ∀ (msg : List Byte) (line : Int), printf msg [.uint status] = .ub → fatalWin sys func file line msg [.uint status] = .ub := by
    intro msg line hm
    rw [fatalWin, printf_plain _ _ (by decide), Res.ok_bind, hm]; rfl
  have bad : ∀ fs : List Byte, fill (fs.map .lit ++ [.conv .lu]) [.uint status] = .ub := by
    intro fs
    induction fs with
    | nil => rfl
    | cons c fs ih => rw [List.map_cons, List.cons_append, fill, ih]; rfl
  have p1 : printf (cstr "BCryptOpenAlgorithmProvider %lu") [.uint status] = .ub := by
    rw [printf, show parse (cstr "BCryptOpenAlgorithmProvider %lu") none = (cstr "BCryptOpenAlgorithmProvider ").map .lit ++ [.conv .lu]
      from by decide +kernel, bad]
  have p2 : printf (cstr "BCryptGenRandom %lu") [.uint status] = .ub := by
    rw [printf, show parse (cstr "BCryptGenRandom %lu") none = (cstr "BCryptGenRandom ").map .lit ++ [.conv .lu] from by decide +kernel, bad]
  rw [Error.bcryptRandBytes]
  cases hp : w.provider with
  | none => simp only []; rw [go _ 21 p1]; rfl
  | some p =>
    rcases hw with hw | hw
    · rw [hp] at hw; cases hw
    · simp only [hw]; rw [go _ 25 p2]; rfl

/-- C86, Windows: where the generator works the reports change nothing. -/
theorem C86_windows_same (sys : WinSys) (file : List Byte) (status : Nat) (w : Win) (buf : List Byte) (size : Nat)
    (hw : ¬(w.provider = none ∨ w.generator (size % 2 ^ 32) = none)) :
    Error.cryptRandBytes sys file w buf size = (Random.cryptRandBytes w buf size).bind (fun r => .ok (.returned r)) ∧
    Error.bcryptRandBytes sys file status w buf size = (Random.bcryptRandBytes w buf size).bind (fun r => .ok (.returned r)) := by
  cases hp : w.provider with
  | none => exact absurd (.inl hp) hw
  | some p =>
    cases hg : w.generator (size % 2 ^ 32) with
    | none => exact absurd (.inr hg) hw
    | some bs =>
      simp only [Error.cryptRandBytes, Error.bcryptRandBytes, Random.cryptRandBytes, Random.bcryptRandBytes, hp, hg]
      cases memcpy buf 0 bs (size % 2 ^ 32) <;> exact ⟨rfl, rfl⟩

/-- Non-vacuity: `ENOENT` on opening, end of file after three bytes, an access error on Windows. -/
example : Error.osRandBytes ⟨2, fun _ => cstr "No such file or directory"⟩ (cstr "random.c") ⟨false, []⟩ [] 4 = .ok (some (.exited
    ⟨cstr "FATAL open /dev/urandom (fingera_os_rand_bytes)(random.c:57)\n\tNo such file or directory(2)\n", -1⟩)) := by decide +kernel
example : Error.osRandBytes ⟨0, fun _ => []⟩ (cstr "random.c") ⟨true, [.bytes [1, 2, 3], .bytes []]⟩ [0, 0, 0, 0] 4 = .ok (some (.exited
    ⟨cstr "FATAL read /dev/urandom 0 (fingera_os_rand_bytes)(random.c:62)\n", -1⟩)) := by decide +kernel
example : Error.cryptRandBytes ⟨⟨0, fun _ => []⟩, 5, fun _ => some (cstr "Access is denied.")⟩ (cstr "random.c") ⟨none, fun _ => none⟩ [] 4 =
    .ok (.exited ⟨cstr "FATAL CryptAcquireContextW (fingera_os_rand_bytes)(random.c:39)\n\tAccess is denied. ErrorCode(00000005)\n", -1⟩) := by
  decide +kernel
