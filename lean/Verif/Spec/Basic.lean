/-! Vocabulary used by the property statements (independent of the model). -/

/-- Memory object `out` after its first bytes have been replaced by `W`; the rest is untouched. -/
def over {α : Type} (W out : List α) : List α := W ++ out.drop W.length
