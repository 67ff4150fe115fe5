import Verif.Spec.CoulombWellPosed

/-!
Specification for C217: two contact problems which differ in the gap only.
-/

namespace Verif.Spec

open Verif.ContactProblem Finset

noncomputable section

variable {G : Type}

/-- The same contact problem with other gap vectors: the same meshes, facets, links and normals, as when one body is
moved away from the other along the contact normal. -/
def withGap (Y : System G) (gap : G → ℕ → Mat) : System G := { Y with gap := gap }

/-- The normal gap differs by at most `eps` at every linked point. -/
def GapsWithin (Y : System G) (t : Tracked G) (gap : G → ℕ → Mat) (eps : ℝ) : Prop :=
  ∀ i < Y.numPairs, ∀ e < Y.localFacets i, ∀ q < Y.nq, 0 ≤ Y.map t.cur i (e * Y.nq + q) →
    |∑ a ∈ range Y.gdim, ((gap t.cur i).v e (q * Y.gdim + a) - (Y.gap t.cur i).v e (q * Y.gdim + a))
      * contactNormalAt Y t.cur i e q a| ≤ eps

end

end Verif.Spec
