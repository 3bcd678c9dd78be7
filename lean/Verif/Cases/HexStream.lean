import Verif.Props.HexStream
import Verif.Cases.Codec
/-! Applications of the theorems of `Props/HexStream`. -/
namespace Cases
section
open Hex HexStream

example := C107_calls (fun _ => 700) (aa 1024) (aa 900) 900 true List.length_replicate (by rw [aa, List.length_replicate])
example := C107_one_call (fun k => 10 * k) (aa 1024) (aa 407) 407 false List.length_replicate (by rw [aa, List.length_replicate])
example := C107_losses (fun k => 1000 - k) (aa 1024) (aa 407) 407 false List.length_replicate (by rw [aa, List.length_replicate])
example := C107_violated_hole (aa 1024) (aa 500) 450 false List.length_replicate (by rw [aa, List.length_replicate]; decide) (by decide)

/-- The stream takes five characters of this dump. -/
def hello : Job := ⟨cstr "hello", false, [⟨cstr "68656c6c 6f\n", 5⟩]⟩
def bye : Job := ⟨cstr "bye", true, [⟨cstr "627965\n", 7⟩]⟩
theorem hello_done : hello.Done := ⟨fun _ => 5, aa 1024, List.length_replicate, by decide +kernel⟩
theorem bye_done : bye.Done := ⟨fun _ => 100, aa 1024, List.length_replicate, by decide +kernel⟩

/-- Two threads; the second prints between the two dumps of the first. -/
example := C107_threads [[hello, hello], [bye]] (by simp [hello_done, bye_done]) (by simp [hello, bye, cstr])
  [cstr "68656c6c 6f\n", cstr "627965\n", cstr "68656c6c 6f\n"]
  (.step _ 0 _ [cstr "68656c6c 6f\n"] _ (by decide) (.step _ 1 _ [] _ (by decide) (.step _ 0 _ [] _ (by decide) (.done _ (by decide)))))

example := C107_violated_mixed (aa 1024) (aa 407) (List.replicate 600 7#8) false true List.length_replicate
  (by rw [aa, List.length_replicate]; decide) (by rw [List.length_replicate]; decide) (fun _ => 0) (fun _ => 5000)
end
end Cases
