import Mathlib.Data.List.Basic

/-!
Specification for C200: an adjacency list is well formed.
-/

namespace Verif.Spec

/-- Offsets `o` of an adjacency list with `n` nodes and data `d`: `n + 1` of them, starting with 0, increasing, and
ending with the number of entries. -/
def AdjacencyOk (n : ℕ) (d o : List ℕ) : Prop :=
  o.length = n + 1 ∧ o.getD 0 0 = 0 ∧ (∀ i < n, o.getD i 0 ≤ o.getD (i + 1) 0) ∧ o.getD n 0 = d.length

end Verif.Spec
