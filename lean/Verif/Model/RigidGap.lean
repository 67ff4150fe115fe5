import Mathlib.Analysis.Real.Sqrt
import Verif.Model.SubMesh

/-!
`Contact.facet_map` as seen from Python (`wrappers.cpp:184-226`) and the gap function of
`nitsche_rigid_surface.py`.
-/

namespace Verif.RigidGap

open Verif.Entities Verif.SubMesh Verif.Ghosting Finset

/-- `wrappers.cpp:184-226` `facet_map`: every submesh facet of the contact map is replaced by a facet of the mesh.
`rows` are the rows of the contact map, `fm` is `submesh.facet_map()`, `parents` is `submesh.parent_cells()`,
`c2f` the cell-facet connectivity of the mesh. -/
def facetMapPy (fm : List ℕ × List ℕ) (parents : List ℕ) (c2f : ℕ → List ℕ) (rows : List (List ℤ)) : List (List ℤ) :=
  rows.map (fun row => row.map (fun facet =>
    if facet < 0 then -1
    else
      let pair := links fm.1 fm.2 facet.toNat
      let cellParent := parents.getD (pair.headD 0) 0
      (((c2f cellParent).getD (pair.getLastD 0) 0 : ℕ) : ℤ)))

noncomputable section

/-- `nitsche_rigid_surface.py:218-249`: the function `gap` at one point.  `contactFacets` is
`facet_marker.find(contact_value_elastic)`, `lookup` is `contact.facet_map(0)`; library functions are parameters:
`closest x` is `compute_closest_entity` among the contact facets, `dist f x` is `compute_distance_gjk` of the nodes of
facet `f` and the point (three components).  `np.isclose(R, 0)` is `R ≤ 1e-8`. -/
def rigidGap (contactFacets : List ℕ) (lookup : List (List ℤ)) (closest : (ℕ → ℝ) → ℕ) (dist : ℤ → (ℕ → ℝ) → ℕ → ℝ)
    (x : ℕ → ℝ) : ℕ → ℝ :=
  let facet := closest x
  let index := contactFacets.idxOf facet
  let r := Real.sqrt (∑ i ∈ range 3, dist facet x i ^ 2)
  if r ≤ 1 / 10 ^ 8 then
    let facet2 := (lookup.getD index []).headD 0
    dist facet2 x
  else fun _ => 0

end

end Verif.RigidGap
