import Verif.Model.Leakage

/-! How much a call does: the bytes it reads and writes, and one for each branch and each call of a small
library function (`isspace`, `memcmp`, whose accesses are counted separately).  Between two of these a piece
of straight code of fixed length is executed, so that the time a call takes is proportional to this number. -/
namespace WorkSpec
open Leakage

/-- What one observation stands for. -/
def cost : Ev → Nat
  | .load _ _ n => n
  | .store _ _ n => n
  | .branch _ => 1
  | .call _ => 1

/-- What a whole run stands for. -/
def work : List Ev → Nat
  | [] => 0
  | e :: t => cost e + work t

end WorkSpec
