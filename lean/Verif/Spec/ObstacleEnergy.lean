import Verif.Spec.OneSidedDriver

/-!
Specification for C183 and C184: energies of a body and of an obstacle.
-/

namespace Verif.Spec

open Verif.ContactProblem Finset

noncomputable section

/-- Energy of a linear elastic body with stiffness matrix `K` under the load `l`. -/
def bulkEnergy (N : ℕ) (K : ℕ → ℕ → ℝ) (l u : ℕ → ℝ) : ℝ :=
  1 / 2 * ∑ d ∈ range N, ∑ c ∈ range N, K d c * u d * u c - ∑ d ∈ range N, l d * u d

/-- `(γ / 2h) [(h/γ) σ_n(u) + clearance - u_n]₋² - (h / 2γ) σ_n(u)²`: penalised penetration minus energy of the
contact stress. -/
def ObstaclePoint.energy (p : ObstaclePoint) (gamma : ℝ) (U : ℕ → ℝ) (D : ℕ → ℕ → ℝ) : ℝ :=
  1 / 2 * (gamma / p.h) * min 0 (p.switch gamma U D) ^ 2 - 1 / 2 * (p.h / gamma) * p.stress D ^ 2

/-- Energy of the contact with an obstacle. -/
def obstacleEnergy {G : Type} (Y : System G) (pt : ℕ → ℕ → ℕ → ℕ → ObstaclePoint) (gamma : ℝ) (u : ℕ → ℝ) : ℝ :=
  overSurface Y (fun e cell f q => (pt e cell f q).energy gamma (valueAt Y cell f u q) (gradAt Y cell f u q))

end

end Verif.Spec
