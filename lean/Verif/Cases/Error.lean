import Verif.Props.Error
/-! Every theorem with hypotheses of `Props/Error`, applied to concrete arguments that meet them. -/
namespace Cases
open Error
open Random (Os Reply Win)

/-- A Windows on which nothing works; `t` is the text for error 5. -/
def deadWin (t : Option (List Byte)) : WinSys := ⟨⟨0, fun _ => []⟩, 5, fun n => if n = 5 then t else none⟩

example := C86_numerals (-1) 0x7B (by decide)
example := C86_unix_read ⟨4, fun _ => cstr "Interrupted system call"⟩ (cstr "random.c") [0, 0, 0, 0] 4 [[1], [2, 3]] .error [.bytes [9]]
  (cstr "-1") (by decide) (by decide) (by decide) (.inl ⟨rfl, rfl⟩)
example := C86_unix_read ⟨0, fun _ => []⟩ (cstr "random.c") [0, 0, 0, 0] 4 [[1], [2, 3]] (.bytes []) [] (cstr "0") (by decide) (by decide)
  (by decide) (.inr ⟨rfl, rfl⟩)
example := C86_windows_report_partial (deadWin (some (cstr "Access is denied."))) (cstr "random.c") ⟨some 7, fun _ => none⟩ [] 4
  ⟨by decide, fun _ => ⟨_, rfl⟩⟩
example := C86_violated_windows_unknown_error (deadWin none) (cstr "random.c") ⟨some 7, fun _ => none⟩ [] 4 (by decide) rfl (.inr rfl)
example := C86_violated_bcrypt_format (deadWin none) (cstr "random.c") 0xC0000001 ⟨none, fun _ => none⟩ [] 4 (.inl rfl)
example := C86_windows_same (deadWin none) (cstr "random.c") 0 ⟨some 7, fun _ => some [1, 2]⟩ [0, 0] 2 (by decide)

end Cases
