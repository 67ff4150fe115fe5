import Verif.Spec.SystemTangent

/-!
Specification for C135: the energy of the symmetric variant of Nitsche's method.
-/

namespace Verif.Spec

open Verif.ContactProblem Finset

noncomputable section

variable {G : Type}

/-- Work against friction with bound `r`, as a function of the slip: half the square of its length while the
point sticks, linear growth with slope `r` when it slides. -/
def slipWork (g : ℕ) (x : ℕ → ℝ) (r : ℝ) : ℝ :=
  if Real.sqrt (∑ a ∈ range g, x a ^ 2) ≤ r then 1 / 2 * ∑ a ∈ range g, x a ^ 2
  else r * Real.sqrt (∑ a ∈ range g, x a ^ 2) - 1 / 2 * r ^ 2

/-- Energy of a contact point per unit of area: penalised penetration and slip minus the energy of the
traction. `J` is the jump of the displacement and `D` the gradient of the total displacement. -/
def ContactPoint.energy (p : ContactPoint) (law : Law) (gamma : ℝ) (J : ℕ → ℝ) (D : ℕ → ℕ → ℝ) : ℝ :=
  1 / 4 * (gamma / p.h) * max 0 (p.pressure gamma J D) ^ 2 - 1 / 4 * (p.h / gamma) * p.dot (p.trac D) ^ 2
    + if law = .frictionless then 0 else
      1 / 2 * (gamma / p.h) * slipWork p.g (p.slip gamma J D) (p.h / gamma * p.fric)
        - 1 / 4 * (p.h / gamma) * ∑ a ∈ range p.g, p.tang (p.trac D) a ^ 2

/-- Energy of the contact conditions of all pairs at displacement `u`. -/
def contactEnergy (Y : System G) (t : Tracked G) (law : Law) (gamma : ℝ) (u : ℕ → ℝ) : ℝ :=
  ∑ i ∈ range Y.numPairs, ∑ e ∈ range (Y.localFacets i),
    ((Y.facets i)[e]?).elim 0 (fun p => ∑ q ∈ range Y.nq,
      if 0 ≤ Y.map t.cur i (e * Y.nq + q) then
        weightAt Y p.1 p.2 q * (pointAt Y t i e p.1 p.2 q).energy law gamma (jumpAt Y t.cur i e p.1 p.2 u q)
          (fun a b => gradAt Y p.1 p.2 u q a b + (pointAt Y t i e p.1 p.2 q).grad0 a b)
      else 0)

/-- The friction bounds are not negative: with the law of Tresca the bound at a point is `(h / γ) s`, with
the law of Coulomb the coefficient of friction is multiplied by a nonnegative pressure. -/
def NonnegativeFriction (Y : System G) (t : Tracked G) (law : Law) (gamma : ℝ) : Prop :=
  ∀ i < Y.numPairs, ∀ e < Y.localFacets i, match law with
    | .frictionless => True
    | .tresca => 0 ≤ t.h i e 0 / gamma * t.fric i e 0
    | .coulomb => 0 ≤ t.fric i e 0

end

end Verif.Spec
