import Verif.Spec.System
import Verif.Spec.ContactLaw

/-!
Specification for consistency of the assembled contact vector (C147).
-/

namespace Verif.Spec

open Verif.ContactProblem Verif.Kernels Finset

noncomputable section

variable {G : Type}

/-- The contact conditions at a point where the displacement has jump `J` and gradient `D`: Signorini's conditions
in the direction of the contact normal and the law of friction in the tangential direction.  Without friction
the tangential traction is zero.  For Coulomb friction the bound is `μ |σ_n|` and the slip has the correction for the
change of the normal. -/
def ContactPoint.Contact (p : ContactPoint) (law : Law) (J : ℕ → ℝ) (D : ℕ → ℕ → ℝ) : Prop :=
  Signorini (p.dot J) (p.dot p.gap) (p.dot (p.trac D)) ∧
  match law with
  | .frictionless => ∀ a < p.g, p.tang (p.trac D) a = 0
  | .tresca => FrictionLaw p.g p.fric (p.tang (p.trac D)) (p.tang J)
  | .coulomb => FrictionLaw p.g (p.fric * |p.dot (p.trac D)|) (p.tang (p.trac D))
      (fun a => p.tang J a - (p.dot p.gap - p.dot J) * p.tang p.oldNormal a)

/-- The contact conditions hold at all linked quadrature points. -/
def InContact (Y : System G) (t : Tracked G) (law : Law) (u : ℕ → ℝ) : Prop :=
  ∀ i < Y.numPairs, ∀ e < Y.localFacets i, ∀ cell f, (Y.facets i)[e]? = some (cell, f) → ∀ q < Y.nq,
    0 ≤ Y.map t.cur i (e * Y.nq + q) →
    (pointAt Y t i e cell f q).Contact law (jumpAt Y t.cur i e cell f u q)
      (fun a b => gradAt Y cell f u q a b + (pointAt Y t i e cell f q).grad0 a b)

/-- Virtual work of the tractions of `u` (with those of the earlier load steps) on the jump of `v` at the linked
points: the quadrature sum of `σ(u) n · [v]`. -/
def tractionWork (Y : System G) (t : Tracked G) (u v : ℕ → ℝ) : ℝ :=
  ∑ i ∈ range Y.numPairs, ∑ e ∈ range (Y.localFacets i),
    ((Y.facets i)[e]?).elim 0 (fun p => ∑ q ∈ range Y.nq,
      if 0 ≤ Y.map t.cur i (e * Y.nq + q) then
        weightAt Y p.1 p.2 q * ∑ a ∈ range Y.gdim, traction Y.gdim (t.mu i e 0) (t.lam i e 0)
          (fun a b => gradAt Y p.1 p.2 u q a b + t.gradU i e ((q * Y.gdim + a) * Y.gdim + b)) (outwardAt Y p.1 p.2 q) a
          * jumpAt Y t.cur i e p.1 p.2 v q a
      else 0)

end

end Verif.Spec
