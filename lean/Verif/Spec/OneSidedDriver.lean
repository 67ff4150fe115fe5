import Verif.Spec.System
import Verif.Model.OneSided

/-!
Specification for the one-sided drivers (C176-C180): Nitsche's form for contact of a body with a fixed rigid
obstacle, as a function of the displacement.
-/

namespace Verif.Spec

open Verif.ContactProblem Finset

noncomputable section

/-- Data of a quadrature point of the contact surface: dimension, Lamé parameters, cell size, distance to the
obstacle in the contact direction, contact direction (towards the obstacle), outward normal of the facet. -/
structure ObstaclePoint where
  g : ℕ
  mu : ℝ
  lam : ℝ
  h : ℝ
  clearance : ℝ
  normal : ℕ → ℝ
  nPhys : ℕ → ℝ

/-- `x · n`. -/
def ObstaclePoint.dot (p : ObstaclePoint) (x : ℕ → ℝ) : ℝ := ∑ a ∈ range p.g, x a * p.normal a

/-- `σ(D) ν · n`: traction of a displacement gradient on the facet in contact direction. -/
def ObstaclePoint.stress (p : ObstaclePoint) (D : ℕ → ℕ → ℝ) : ℝ := p.dot (traction p.g p.mu p.lam D p.nPhys)

/-- `(h / γ) σ_n(u) + clearance - u_n`: negative where the body is pressed against the obstacle. -/
def ObstaclePoint.switch (p : ObstaclePoint) (gamma : ℝ) (U : ℕ → ℝ) (D : ℕ → ℕ → ℝ) : ℝ :=
  p.h / gamma * p.stress D + (p.clearance - p.dot U)

/-- `-θ (h/γ) σ_n(u) σ_n(v) + [(h/γ) σ_n(u) + clearance - u_n]₋ (θ σ_n(v) - (γ/h) v_n)`. -/
def ObstaclePoint.form (p : ObstaclePoint) (gamma theta : ℝ) (U : ℕ → ℝ) (D : ℕ → ℕ → ℝ) (V : ℕ → ℝ)
    (D' : ℕ → ℕ → ℝ) : ℝ :=
  -theta * (p.h / gamma) * p.stress D * p.stress D'
    + min 0 (p.switch gamma U D) * (theta * p.stress D' - gamma / p.h * p.dot V)

/-- Its linearisation in direction `W`, `E`. -/
def ObstaclePoint.tangent (p : ObstaclePoint) (gamma theta : ℝ) (U : ℕ → ℝ) (D : ℕ → ℕ → ℝ) (W : ℕ → ℝ)
    (E : ℕ → ℕ → ℝ) (V : ℕ → ℝ) (D' : ℕ → ℕ → ℝ) : ℝ :=
  -theta * (p.h / gamma) * p.stress E * p.stress D'
    + (if p.switch gamma U D < 0 then p.h / gamma * p.stress E - p.dot W else 0)
      * (theta * p.stress D' - gamma / p.h * p.dot V)

variable {G : Type}

/-- Area of a quadrature point: reference weight times surface determinant. -/
def areaAt (Y : System G) (cell f q : ℕ) : ℝ := Y.weights f q * |Y.det f (jacobianAt Y cell (Y.off f + q))|

/-- Sum over the quadrature points of the owned contact facets: facet `e` is local facet `f` of `cell`. -/
def overSurface (Y : System G) (F : ℕ → ℕ → ℕ → ℕ → ℝ) : ℝ :=
  ∑ e ∈ range (Y.localFacets 0), ((Y.facets 0)[e]?).elim 0 (fun p => ∑ q ∈ range Y.nq,
    areaAt Y p.1 p.2 q * F e p.1 p.2 q)

/-- Nitsche's form of an obstacle described by the data `pt e cell f q` of the quadrature points, at displacement `u`
tested with `v`. -/
def obstacleForm (Y : System G) (pt : ℕ → ℕ → ℕ → ℕ → ObstaclePoint) (gamma theta : ℝ) (u v : ℕ → ℝ) : ℝ :=
  overSurface Y (fun e cell f q => (pt e cell f q).form gamma theta (valueAt Y cell f u q) (gradAt Y cell f u q)
    (valueAt Y cell f v q) (gradAt Y cell f v q))

/-- Its linearisation at `u` in direction `w`. -/
def obstacleTangent (Y : System G) (pt : ℕ → ℕ → ℕ → ℕ → ObstaclePoint) (gamma theta : ℝ) (u w v : ℕ → ℝ) : ℝ :=
  overSurface Y (fun e cell f q => (pt e cell f q).tangent gamma theta (valueAt Y cell f u q) (gradAt Y cell f u q)
    (valueAt Y cell f w q) (gradAt Y cell f w q) (valueAt Y cell f v q) (gradAt Y cell f v q))

/-- The body touches or leaves the obstacle at no quadrature point. -/
def NotSwitching (Y : System G) (pt : ℕ → ℕ → ℕ → ℕ → ObstaclePoint) (gamma : ℝ) (u : ℕ → ℝ) : Prop :=
  ∀ e < Y.localFacets 0, ∀ cell f, (Y.facets 0)[e]? = some (cell, f) → ∀ q < Y.nq,
    (pt e cell f q).switch gamma (valueAt Y cell f u q) (gradAt Y cell f u q) ≠ 0

/-- The plane `x_last = -plane_loc` below the body: the contact direction is down, the clearance is the height of the
quadrature point above the plane; `qp` are the coordinates of the quadrature points. -/
def planePoint (Y : System G) (P : OneSided.Params) (size qp : ℕ → ℝ) (e cell f q : ℕ) : ObstaclePoint where
  g := Y.gdim
  mu := P.E / (2 * (1 + P.nu))
  lam := if P.planeStrain then P.E * P.nu / ((1 + P.nu) * (1 - 2 * P.nu)) else P.E * P.nu / ((1 + P.nu) * (1 - P.nu))
  h := size cell
  clearance := qp ((e * Y.nq + q) * Y.gdim + (Y.gdim - 1)) - (-P.planeLoc)
  normal := fun a => if a + 1 = Y.gdim then -1 else 0
  nPhys := outwardAt Y cell f q

/-- A rigid surface given by the gap vectors and its normals at the contact points: the contact direction is minus
its normal, the clearance the component of the gap vector in this direction. -/
def surfacePoint (Y : System Unit) (P : OneSided.Params) (size : ℕ → ℝ) (e cell f q : ℕ) : ObstaclePoint where
  g := Y.gdim
  mu := P.E / (2 * (1 + P.nu))
  lam := if P.planeStrain then P.E * P.nu / ((1 + P.nu) * (1 - 2 * P.nu)) else P.E * P.nu / ((1 + P.nu) * (1 - P.nu))
  h := size cell
  clearance := ∑ a ∈ range Y.gdim, (Y.gap () 0).v e (q * Y.gdim + a) * -(Y.ny () 0).v e (q * Y.gdim + a)
  normal := fun a => -(Y.ny () 0).v e (q * Y.gdim + a)
  nPhys := outwardAt Y cell f q

/-- The dofs of the cells at the contact surface are less than `N`. -/
def SurfaceBelow (Y : System G) (N : ℕ) : Prop :=
  ∀ p ∈ Y.facets 0, ∀ a < Y.nd, Y.gdim * Y.space.parent p.1 a + Y.gdim ≤ N

/-- Equilibrium up to `tol`: for every virtual displacement `v` the work of the forces `bulk` of the body and of the
contact forces is at most `tol` times the length of `v`. -/
def ObstacleEquilibrium (Y : System G) (pt : ℕ → ℕ → ℕ → ℕ → ObstaclePoint) (gamma theta : ℝ) (bulk : (ℕ → ℝ) → ℕ → ℝ) (N : ℕ)
    (u : ℕ → ℝ) (tol : ℝ) : Prop :=
  ∀ v : ℕ → ℝ, |∑ d ∈ range N, bulk u d * v d + obstacleForm Y pt gamma theta u v|
    ≤ tol * Real.sqrt (∑ d ∈ range N, v d ^ 2)

end

end Verif.Spec
