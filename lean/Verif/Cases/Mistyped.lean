import Verif.Props.Mistyped
import Verif.Cases.Address
/-! Every theorem with hypotheses of `Props/Mistyped`, applied to concrete arguments that meet them. -/
namespace Cases
open Address AddressSpec

/-- A witness address, written and mistyped. -/
def typed : List Byte := cstr "bc1qllllllllllllllllllllllllllllllllfglmy6"
def mistyped : List Byte := cstr "bc1qlllllllllllqllllllllllllllLllpllfglny6"
theorem typed_eq : witness Network.main.hrp 0#8 (List.replicate 20 0xFF#8) = typed := by decide +kernel

example := C90_four_errors .main .little true junk mistyped [] (aa 40) 0#8 (List.replicate 20 0xFF#8) ⟨.bad, aa 40, 40⟩ (by decide) (by decide)
  (by decide +kernel) (by decide +kernel) (by rw [typed_eq]; decide +kernel) (by rw [typed_eq]; decide +kernel) (by rw [typed_eq]; decide +kernel)
  (by decide +kernel)
example := C90_burst .main .little true junk (cstr "bc1qll") (cstr "llllll") (cstr "qpzry9") (cstr "llllllllllllllllllllllllfglmy6") [] (aa 40) 0#8
  (List.replicate 20 0xFF#8) ⟨.bad, aa 40, 40⟩ (by decide) (by decide) (by decide +kernel) (by decide +kernel) (by rw [typed_eq]; decide +kernel)
  (by decide) (by decide) (by decide) (by decide +kernel) (by decide +kernel)

end Cases
