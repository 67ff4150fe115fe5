import Verif.Model.Tags
import Verif.Model.OneSided

/-!
`python/demos/demo_sliding_wedges.py`: the reaction forces on the two contact surfaces and the numbers printed at the
end. The physical groups that name these surfaces are those of `Model/Tags.lean`. The solve itself is that of `Model/Driver.lean`. Quadrature points of exterior facets, their weights and the facet normal are
library data. Not modelled: output.
-/

namespace Verif.Wedges

open Finset Verif.ContactMeshes

noncomputable section

/-- Quadrature points of the measure `ds` (`demo_sliding_wedges.py:271`): weight, facet normal, and the points of each process on facets with a
given tag. -/
structure Surfaces where
  size : ℕ
  wt : ℕ → ℝ
  n : ℕ → ℕ → ℝ
  pts : ℕ → ℕ → List ℕ

/-- `contact_bdy_1`, `contact_bdy_2` (`demo_sliding_wedges.py:103-104`). -/
def contactBdy1 : ℕ := 7
/-- See `contactBdy1` (`demo_sliding_wedges.py:104`). -/
def contactBdy2 : ℕ := 5

/-- `ex`, `ey` (`demo_sliding_wedges.py:272-273`). -/
def ex (i : ℕ) : ℝ := if i = 0 then 1 else 0
/-- See `ex` (`demo_sliding_wedges.py:273`). -/
def ey (i : ℕ) : ℝ := if i = 1 then 1 else 0

/-- `sigma(u) * n` at point `k`; `G k` is the gradient of `u` (`demo_sliding_wedges.py:131`, `demo_sliding_wedges.py:274`). -/
def traction (mu lmbda : ℝ) (S : Surfaces) (G : ℕ → ℕ → ℕ → ℝ) (k i : ℕ) : ℝ :=
  OneSided.sigN 2 mu lmbda (G k) (S.n k) i

/-- `mesh.comm.allreduce(assemble_scalar(form(ufl.inner(sigma(u) * n, e) * ds(tag))))` (`demo_sliding_wedges.py:274-281`). -/
def reaction (mu lmbda : ℝ) (S : Surfaces) (G : ℕ → ℕ → ℕ → ℝ) (tag : ℕ) (e : ℕ → ℝ) : ℝ :=
  ∑ r ∈ range S.size,
    ((S.pts r tag).map (fun k => S.wt k * OneSided.dotV 2 (traction mu lmbda S G k) e)).sum

/-- The numbers printed (`demo_sliding_wedges.py:278-288`); dividing by zero raises. -/
def printed (E nu fric angle : ℝ) (S : Surfaces) (G : ℕ → ℕ → ℕ → ℝ) : Except String (ℝ × ℝ × ℝ) :=
  let mu := Scalars.lameMu E nu
  let lmbda := Scalars.lameLambda true E nu
  let Rx1 := reaction mu lmbda S G contactBdy1 ex
  let Ry1 := reaction mu lmbda S G contactBdy1 ey
  let Rx2 := reaction mu lmbda S G contactBdy2 ex
  let Ry2 := reaction mu lmbda S G contactBdy2 ey
  if |Ry1| = 0 then .error "ZeroDivisionError"
  else if |Ry2| = 0 then .error "ZeroDivisionError"
  else .ok (|Rx1| / |Ry1|, |Rx2| / |Ry2|, (fric + Real.tan angle) / (1 - fric * Real.tan angle))

end

end Verif.Wedges
