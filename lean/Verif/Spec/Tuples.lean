/-! Flat arrays of tuples, for C13, C16 and C95. -/

namespace Verif.Spec

/-- Tuple number `a` of a flat array of tuples of length `dim`. -/
def tuple {α : Type} (dim : Nat) (xs : List α) (a : Nat) : List α := (xs.drop (dim * a)).take dim

end Verif.Spec
