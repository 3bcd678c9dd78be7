/-! Specification for C98: what is left of a number that does not fit. -/
namespace ReleaseSpec

/-- The zero bytes `W` begins with, and behind them the number that follows, modulo `256 ^ size`: its most significant bytes are lost and
what is left is written without leading zeros. -/
def cut (size : Nat) (W : List (BitVec 8)) : List (BitVec 8) :=
  let body := W.dropWhile (· = 0#8)
  W.takeWhile (· = 0#8) ++ (body.drop (body.length - size)).dropWhile (· = 0#8)

end ReleaseSpec
