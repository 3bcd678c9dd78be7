import Verif.Model.Temporaries
/-! What C71 and C72 ask of a log of temporaries. -/
namespace Temporaries

/-- Every byte has the pattern 0xCC of `fingera_cleanse`: nothing of the former contents is left. -/
def Wiped (contents : List Byte) : Prop := ∀ b ∈ contents, b = 0xCC#8

/-- If the event gives a temporary back, the temporary was wiped, unless its name is one of `except`. -/
def WipedEvent (except : List String) : Event → Prop
  | .malloc _ _ => True
  | .free name _ contents => name ∈ except ∨ Wiped contents
  | .dies name contents => name ∈ except ∨ Wiped contents

/-- The blocks that are allocated after the events; `none` if a block was freed that was not allocated at that moment (freed
twice, or never obtained), or a block that is in use was handed out again. -/
def heap : List Event → List Nat → Option (List Nat)
  | [], live => some live
  | .malloc p _ :: es, live => if p ∈ live then none else heap es (p :: live)
  | .free _ p _ :: es, live => if p ∈ live then heap es (live.erase p) else none
  | .dies _ _ :: es, live => heap es live

/-- Whenever the call returns, all the temporaries it gave back had been wiped, those named in `except` apart.  (`m` is the call,
`t` the same call with a log.) -/
def Clean {α : Type} (except : List String) (t : Tr α) (m : Res α) : Prop :=
  ∀ a, m = .ok a → ∃ log, t [] = .ok (a, log) ∧ ∀ e ∈ log, WipedEvent except e

/-- Whenever the call returns, each heap block it obtained has been freed exactly once, and nothing else was freed. -/
def Balanced {α : Type} (t : Tr α) (m : Res α) : Prop :=
  ∀ a, m = .ok a → ∃ log, t [] = .ok (a, log) ∧ heap log [] = some []

end Temporaries
