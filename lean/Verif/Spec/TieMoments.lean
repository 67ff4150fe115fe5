import Verif.Spec.TieSystem
import Verif.Spec.Moments

/-!
Specification for C171: moments of the forces assembled for tied bodies, rigid motions of tied bodies.
-/

namespace Verif.Spec

open Verif.TieData Verif.Kernels Finset

noncomputable section

/-- A statement about all tied points of the owned facets: pair, facet, its cell and local facet, point. -/
def AtTied (M : TieMesh) (P : ℕ → ℕ → ℕ → ℕ → ℕ → Prop) : Prop :=
  ∀ i < M.numPairs, ∀ e < M.localFacets i, ∀ cell f, (M.facets i)[e]? = some (cell, f) → ∀ q < M.nq,
    Tied M i e q → P i e cell f q

/-- `x` are the coordinates of the nodes: the gap vector is the closest point minus the quadrature point. -/
def TieNodesAt (M : TieMesh) (E : TieElement) (x : ℕ → ℝ) : Prop :=
  AtTied M (fun i e cell f q => ∀ a < M.gdim,
    M.gap i ((e * M.nq + q) * M.gdim + a) = tieOpposite M E i e x q a - tieValue M E cell f x q a)

/-- `x` are the coordinates of the nodes: their gradient is the identity on both sides. -/
def TieNodesOfMesh (M : TieMesh) (E : TieElement) (x : ℕ → ℝ) : Prop :=
  AtTied M (fun i e cell f q => ∀ a < M.gdim, ∀ b < M.gdim,
    tieGrad M E cell f x q a b = (if a = b then 1 else 0) ∧ tieOppositeGrad M E i e x q a b = if a = b then 1 else 0)

/-- At tied points the two surfaces are the same. -/
def TieNoGap (M : TieMesh) : Prop :=
  AtTied M (fun i e _ _ q => ∀ a < M.gdim, M.gap i ((e * M.nq + q) * M.gdim + a) = 0)

/-- The sum of the moments gap × force over all tied points, for the force `F` per unit of area at a point. -/
def tieGapMoment (M : TieMesh) (F : ℕ → ℕ → ℕ → ℕ → ℕ → ℕ → ℝ) (k l : ℕ) : ℝ :=
  tieSum M (fun i e cell f q => M.gap i ((e * M.nq + q) * M.gdim + k) * F i e cell f q l
    - M.gap i ((e * M.nq + q) * M.gdim + l) * F i e cell f q k)

/-- The force that ties the two surfaces, per unit of area and for one surface's half: minus the mean traction plus the
penalty of the jump. -/
def tieForce (M : TieMesh) (E EQ : TieElement) (mat : Key → ℕ → ℝ) (gamma : ℝ) (u : ℕ → ℝ) (i e cell f q a : ℕ) : ℝ :=
  1 / 2 * (-traction M.gdim (midValue EQ cell f (mat .mu)) (midValue EQ cell f (mat .lam))
      (tieMeanGrad M E i e cell f u q) (tieOutward M cell f q) a
    + gamma / M.h i e * tieJumpAt M E i e cell f u q a)

/-- The force of the thermal stress. -/
def tieThermalForce (M : TieMesh) (EQ ET : TieElement) (mat : Key → ℕ → ℝ) (T : ℕ → ℝ) (i e cell f q a : ℕ) : ℝ :=
  1 / 2 * (midValue EQ cell f (mat .alpha) * (3 * midValue EQ cell f (mat .lam) + 2 * midValue EQ cell f (mat .mu)))
    * ((tieValue M ET cell f T q 0 + tieOpposite M ET i e T q 0) / 2) * tieOutward M cell f q a

end

end Verif.Spec
