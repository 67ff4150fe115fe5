import Verif.Spec.SystemTangent

/-!
Specification for C138: from one load step to the next.
-/

namespace Verif.Spec

open Verif.ContactProblem Finset

noncomputable section

variable {G : Type}

/-- Geometry `g'` is `g` moved by the displacement `w`, and the search finds the same contact points and the
same contact normals: the gap vector (contact point minus quadrature point) changes by the displacement of
the contact point minus that of the quadrature point. -/
structure SameContact (Y : System G) (g g' : G) (w : ℕ → ℝ) : Prop where
  map : ∀ i < Y.numPairs, ∀ e < Y.localFacets i, ∀ q < Y.nq, Y.map g' i (e * Y.nq + q) = Y.map g i (e * Y.nq + q)
  basis : ∀ i < Y.numPairs, ∀ e < Y.localFacets i, ∀ q < Y.nq, 0 ≤ Y.map g i (e * Y.nq + q) →
    ∀ k < Y.nd, Y.basis g' i (e * Y.nq + q) k = Y.basis g i (e * Y.nq + q) k
  normal : ∀ i < Y.numPairs, ∀ e < Y.localFacets i, ∀ q < Y.nq, 0 ≤ Y.map g i (e * Y.nq + q) →
    ∀ a < Y.gdim, contactNormalAt Y g' i e q a = contactNormalAt Y g i e q a
  gap : ∀ i < Y.numPairs, ∀ e < Y.localFacets i, ∀ cell f, (Y.facets i)[e]? = some (cell, f) → ∀ q < Y.nq,
    0 ≤ Y.map g i (e * Y.nq + q) → ∀ a < Y.gdim,
    (Y.gap g' i).v e (q * Y.gdim + a) = (Y.gap g i).v e (q * Y.gdim + a) - jumpAt Y g i e cell f w q a

/-- The displacement of earlier load steps which the object remembers is `U`. -/
def Remembers (Y : System G) (t : Tracked G) (U : ℕ → ℝ) : Prop :=
  ∀ i < Y.numPairs, ∀ e < Y.localFacets i, ∀ cell f, (Y.facets i)[e]? = some (cell, f) → ∀ q < Y.nq,
    ∀ a < Y.gdim, ∀ b < Y.gdim, t.gradU i e ((q * Y.gdim + a) * Y.gdim + b) = gradAt Y cell f U q a b

/-- The displacement `w` does not move linked points along the contact surface. -/
def NoSliding (Y : System G) (t : Tracked G) (w : ℕ → ℝ) : Prop :=
  ∀ i < Y.numPairs, ∀ e < Y.localFacets i, ∀ cell f, (Y.facets i)[e]? = some (cell, f) → ∀ q < Y.nq,
    0 ≤ Y.map t.cur i (e * Y.nq + q) →
    ∀ a < Y.gdim, (pointAt Y t i e cell f q).tang (jumpAt Y t.cur i e cell f w q) a = 0

/-- The contact normals were the same at the previous detection. -/
def SameOldNormals (Y : System G) (t : Tracked G) : Prop :=
  ∀ i < Y.numPairs, ∀ e < Y.localFacets i, ∀ q < Y.nq, 0 ≤ Y.map t.cur i (e * Y.nq + q) →
    ∀ a < Y.gdim, contactNormalAt Y t.prev i e q a = contactNormalAt Y t.cur i e q a

end

end Verif.Spec
