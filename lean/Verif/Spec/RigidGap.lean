import Verif.Model.RigidGap

/-!
Specification for C149 and C150.
-/

namespace Verif.RigidGap

open Verif.Entities Finset

/-- Contract of `create_submesh`: facets of the submesh are the same if those of the mesh are. `sub` and `c2f` are the
facets of the cells of the submesh and of the mesh. -/
def SameFacets (cells : List ℕ) (sub c2f : ℕ → List ℕ) : Prop :=
  ∀ i j, (hi : i < cells.length) → (hj : j < cells.length) → ∀ l l' f : ℕ, (sub i)[l]? = some f → (sub j)[l']? = some f →
    (c2f cells[i])[l]? = (c2f cells[j])[l']?

/-- The facets of a surface in the order in which the contact map has its rows. -/
def Rows (cn : Conn) (facets : List ℕ) (row : ℕ → List ℤ) (lookup : List (List ℤ)) : Prop :=
  ∃ flat, activeEntities cn facets .exteriorFacet = .ok flat ∧ lookup = (facetIndicesFromPair cn flat).map row

noncomputable section

/-- The gap the driver is meant to use: the vector to the facet found for the contact facet of the point. -/
def intendedGap (row : ℕ → List ℤ) (closest : (ℕ → ℝ) → ℕ) (dist : ℤ → (ℕ → ℝ) → ℕ → ℝ) (x : ℕ → ℝ) : ℕ → ℝ :=
  if Real.sqrt (∑ i ∈ range 3, dist (closest x) x i ^ 2) ≤ 1 / 10 ^ 8 then dist ((row (closest x)).headD 0) x else fun _ => 0

end

end Verif.RigidGap
