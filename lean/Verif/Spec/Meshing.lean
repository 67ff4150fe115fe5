import Mathlib.Data.List.Rotate

/-! What the mesh generators of `meshing/split_box.py` are supposed to produce.  Nothing here refers
to the model. -/

namespace Verif.Spec.Meshing

/-- Walking around the closed polygon `domain` one meets corner `p`, then corner `q`, then `rest`
(and then `p` again). -/
def Around (domain : List ℕ) (p q : ℕ) (rest : List ℕ) : Prop := domain ~r (p :: q :: rest)

/-- The two interface corners 4 and 5 of a closed polygon are joined by an edge. -/
def Adjacent (domain : List ℕ) : Prop := ∃ rest, Around domain 4 5 rest ∨ Around domain 5 4 rest

/-- The corners 4 and 5 occur exactly once in the polygon. -/
def Once (domain : List ℕ) : Prop := domain.count 4 = 1 ∧ domain.count 5 = 1

instance (domain : List ℕ) : Decidable (Once domain) := inferInstanceAs (Decidable (_ ∧ _))

/-- Every one of the `N` entities is in exactly one of the groups, and no group has a duplicate. -/
def Partition (groups : List (List ℕ)) (N : ℕ) : Prop := groups.flatten.Perm (List.range N)

/-- Entity `i` is in group number `g`. -/
def InGroup (groups : List (List ℕ)) (g i : ℕ) : Prop := i ∈ groups.getD g []

instance (groups : List (List ℕ)) (g i : ℕ) : Decidable (InGroup groups g i) :=
  inferInstanceAs (Decidable (_ ∈ _))

end Verif.Spec.Meshing
