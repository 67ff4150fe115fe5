import Verif.Spec.OneSidedDriver

/-!
Specification for C179 and C180: contact pressure of an obstacle, stiffness of the body against it.
-/

namespace Verif.Spec

open Verif.ContactProblem Finset

noncomputable section

/-- Contact pressure at a point: `-(γ/h) [(h/γ) σ_n(u) + clearance - u_n]₋`. -/
def ObstaclePoint.force (p : ObstaclePoint) (gamma : ℝ) (U : ℕ → ℝ) (D : ℕ → ℕ → ℝ) : ℝ :=
  gamma / p.h * max 0 (-p.switch gamma U D)

variable {G : Type}

/-- The shape functions sum to one at the quadrature points of the contact facets, their derivatives to zero. -/
def UnitSum (Y : System G) : Prop :=
  ∀ e < Y.localFacets 0, ∀ cell f, (Y.facets 0)[e]? = some (cell, f) → ∀ q < Y.nq,
    ∑ k ∈ range Y.nd, Y.phi (Y.off f + q) k = 1 ∧ ∀ j < Y.tdim, ∑ k ∈ range Y.nd, Y.dphi j (Y.off f + q) k = 0

/-- The rigid translation by `c`. -/
def translation (Y : System G) (c : ℕ → ℝ) (d : ℕ) : ℝ := c (d % Y.gdim)

/-- Signorini's conditions at a point: the body does not pull on the obstacle, does not enter it, and presses only
where it touches it. -/
def ObstaclePoint.Signorini (p : ObstaclePoint) (U : ℕ → ℝ) (D : ℕ → ℕ → ℝ) : Prop :=
  p.stress D ≤ 0 ∧ p.dot U ≤ p.clearance ∧ p.stress D * (p.dot U - p.clearance) = 0

/-- Size of the contact stresses of a displacement, weighted with the cell size. -/
def stressSquare (Y : System G) (pt : ℕ → ℕ → ℕ → ℕ → ObstaclePoint) (v : ℕ → ℝ) : ℝ :=
  overSurface Y (fun e cell f q => (pt e cell f q).h * (pt e cell f q).stress (gradAt Y cell f v q) ^ 2)

/-- The elastic energy of every displacement but zero (twice; `K` is the stiffness matrix) exceeds `(1 + θ)² / (4 γ)`
times the size of its contact stresses. For `θ = -1` this says that `K` is positive definite. -/
def ObstacleCoercive (Y : System G) (pt : ℕ → ℕ → ℕ → ℕ → ObstaclePoint) (gamma theta : ℝ) (N : ℕ) (K : ℕ → ℕ → ℝ) : Prop :=
  ∀ v : ℕ → ℝ, (∀ d, N ≤ d → v d = 0) → (∃ d, v d ≠ 0) →
    (1 + theta) ^ 2 / (4 * gamma) * stressSquare Y pt v < ∑ d ∈ range N, ∑ c ∈ range N, v d * K d c * v c

/-- No quadrature point changes between being pressed against the obstacle and not, from displacement `u` to `w`. -/
def SamePressed (Y : System G) (pt : ℕ → ℕ → ℕ → ℕ → ObstaclePoint) (gamma : ℝ) (u w : ℕ → ℝ) : Prop :=
  ∀ e < Y.localFacets 0, ∀ cell f, (Y.facets 0)[e]? = some (cell, f) → ∀ q < Y.nq,
    ((pt e cell f q).switch gamma (valueAt Y cell f u q) (gradAt Y cell f u q) < 0
      ↔ (pt e cell f q).switch gamma (valueAt Y cell f w q) (gradAt Y cell f w q) < 0)

/-- The rigid surface is the plane `x_last = -plane_loc`: the closest point lies straight below, and the normals of
the surface point up. -/
def FlatSurface (Y : System Unit) (P : OneSided.Params) (qp : ℕ → ℝ) : Prop :=
  ∀ e < Y.localFacets 0, ∀ q < Y.nq, ∀ a < Y.gdim,
    (Y.ny () 0).v e (q * Y.gdim + a) = (if a + 1 = Y.gdim then 1 else 0)
    ∧ (a + 1 = Y.gdim → (Y.gap () 0).v e (q * Y.gdim + a) = -P.planeLoc - qp ((e * Y.nq + q) * Y.gdim + a))

end

end Verif.Spec
