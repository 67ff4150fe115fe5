import Verif.Spec.FrictionLimit

/-!
Specification for C225: what Tresca friction can carry along a flat interface.
-/

namespace Verif.Spec

open Finset Verif.ContactProblem

noncomputable section

variable {G : Type}

/-- One of the two cells belongs to the body and the other one does not. -/
def Between (Y : System G) (B : Finset ℕ) (cell cell' : ℕ) : Prop :=
  (CellIn Y B cell ∧ CellOut Y B cell') ∨ (CellOut Y B cell ∧ CellIn Y B cell')

open Classical in
/-- Tresca's bound integrated over the linked points between the body and others: the mean of both surfaces, each of which
is integrated over. -/
def trescaCapacity (Y : System G) (t : Tracked G) (B : Finset ℕ) : ℝ :=
  ∑ i ∈ range Y.numPairs, ∑ e ∈ range (Y.localFacets i),
    ((Y.facets i)[e]?).elim 0 (fun p => ∑ q ∈ range Y.nq,
      if 0 ≤ Y.map t.cur i (e * Y.nq + q) ∧ Between Y B p.1 (linkedCell Y t.cur i e q) then
        1 / 2 * (weightAt Y p.1 p.2 q * t.fric i e 0)
      else 0)

/-- Distance of the surfaces at a linked point along the contact normal after the displacement `x`. -/
def distanceAt (Y : System G) (t : Tracked G) (i e cell f : ℕ) (x : ℕ → ℝ) (q : ℕ) : ℝ :=
  (pointAt Y t i e cell f q).dot (pointAt Y t i e cell f q).gap
    - (pointAt Y t i e cell f q).dot (jumpAt Y t.cur i e cell f x q)

end

end Verif.Spec
