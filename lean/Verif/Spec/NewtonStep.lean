import Verif.Spec.SystemTangent

/-!
Specification for C134: two displacements with the same contact status.
-/

namespace Verif.Spec

open Verif.ContactProblem Finset

noncomputable section

variable {G : Type}

/-- Length of a vector. -/
def magnitude (g : ℕ) (x : ℕ → ℝ) : ℝ := Real.sqrt (∑ a ∈ range g, x a ^ 2)

/-- A point with jump and gradient `J`, `D` has the same status as with `J'`, `D'`: closed or open at both,
and with friction sticking at both (with a bound of at least `1e-14` at the first), unless the friction
bound is zero at both. -/
def ContactPoint.SameStatus (p : ContactPoint) (law : Law) (gamma : ℝ) (J : ℕ → ℝ) (D : ℕ → ℕ → ℝ)
    (J' : ℕ → ℝ) (D' : ℕ → ℕ → ℝ) : Prop :=
  (0 < p.pressure gamma J D ↔ 0 < p.pressure gamma J' D')
  ∧ (law ≠ .frictionless →
    (p.bound law gamma J D = 0 ∧ p.bound law gamma J' D' = 0)
    ∨ (1e-14 ≤ p.bound law gamma J D ∧ magnitude p.g (p.trial law gamma J D) < p.bound law gamma J D
      ∧ magnitude p.g (p.trial law gamma J' D') ≤ p.bound law gamma J' D'))

/-- All linked points have the same status at the displacements `u` and `u'`. -/
def SameStatus (Y : System G) (t : Tracked G) (law : Law) (gamma : ℝ) (u u' : ℕ → ℝ) : Prop :=
  ∀ i < Y.numPairs, ∀ e < Y.localFacets i, ∀ cell f, (Y.facets i)[e]? = some (cell, f) → ∀ q < Y.nq,
    0 ≤ Y.map t.cur i (e * Y.nq + q) →
    (pointAt Y t i e cell f q).SameStatus law gamma
      (jumpAt Y t.cur i e cell f u q) (fun a b => gradAt Y cell f u q a b + (pointAt Y t i e cell f q).grad0 a b)
      (jumpAt Y t.cur i e cell f u' q) (fun a b => gradAt Y cell f u' q a b + (pointAt Y t i e cell f q).grad0 a b)

end

end Verif.Spec
