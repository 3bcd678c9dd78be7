import Verif.Spec.Base58
/-! Specification for C97: what the announced length of a base58 text decides in the C decoder. -/
namespace Base58Spec

/-- How many blanks and, behind them, `'1'`s a text begins with. -/
def leading (s : List (BitVec 8)) : Nat :=
  (s.takeWhile isSpace).length + ((s.dropWhile isSpace).takeWhile (· = 49#8)).length

/-- The number of bytes of the decoder's work area for a text with `lead` leading blanks and `'1'`s that is announced as `n` characters
long. -/
def workArea (n lead : Nat) : Nat := (n - lead) * 733 / 1000 + 1

end Base58Spec
