import Mathlib.Algebra.BigOperators.Group.Finset.Basic
import Mathlib.Analysis.Real.Sqrt

/-! Specifications for cell geometry (C66–C68). -/

namespace Verif.Geometry

open Finset

/-- Euclidean distance in `gdim` dimensions. -/
noncomputable def dist (gdim : ℕ) (x y : ℕ → ℝ) : ℝ := Real.sqrt (∑ i ∈ range gdim, (x i - y i) ^ 2)

/-- `R` is the circumradius of the simplex with the nodes `geo 0`, …, `geo n`: some point of the
affine span of the nodes has distance `R` from each of them. -/
def IsCircumradius (gdim n : ℕ) (geo : ℕ → ℕ → ℝ) (R : ℝ) : Prop :=
  ∃ (w : ℕ → ℝ) (c : ℕ → ℝ), ∑ j ∈ range (n + 1), w j = 1 ∧
    (∀ i < gdim, c i = ∑ j ∈ range (n + 1), w j * geo j i) ∧
    ∀ j ≤ n, dist gdim c (geo j) = R

/-- The edges from node 0 are linearly independent. -/
def Nondegenerate (gdim n : ℕ) (geo : ℕ → ℕ → ℝ) : Prop :=
  ∀ a : ℕ → ℝ, (∀ i < gdim, ∑ j ∈ range n, a j * (geo (j + 1) i - geo 0 i) = 0) → ∀ j < n, a j = 0

/-- `K` is a left inverse of the `gdim × tdim` matrix `J`. -/
def LeftInverse (gdim tdim : ℕ) (K J : ℕ → ℕ → ℝ) : Prop :=
  ∀ a < tdim, ∀ b < tdim, ∑ i ∈ range gdim, K a i * J i b = if a = b then 1 else 0

/-- Point of a cell with `n` nodes `geo j`, at which the basis functions have the values `phi j`. -/
def cellPoint (n : ℕ) (geo : ℕ → ℕ → ℝ) (phi : ℕ → ℝ) (i : ℕ) : ℝ := ∑ j ∈ range n, geo j i * phi j

/-- Jacobian (row: component of the point, column: reference direction) where the basis functions have the
derivatives `dphi d j`. -/
def jacobian (n : ℕ) (geo : ℕ → ℕ → ℝ) (dphi : ℕ → ℕ → ℝ) (i d : ℕ) : ℝ := ∑ j ∈ range n, geo j i * dphi d j

/-- The map from the reference cell is affine: node 0 is the image of the origin, the Jacobian is constant. -/
structure IsAffine (gdim tdim n : ℕ) (geo : ℕ → ℕ → ℝ) (phi : (ℕ → ℝ) → ℕ → ℝ) (dphi : (ℕ → ℝ) → ℕ → ℕ → ℝ) :
    Prop where
  point : ∀ X, ∀ i < gdim, cellPoint n geo (phi X) i =
    geo 0 i + ∑ d ∈ range tdim, jacobian n geo (dphi (fun _ => 0)) i d * X d
  jac : ∀ X, jacobian n geo (dphi X) = jacobian n geo (dphi (fun _ => 0))

/-- Newton step for the equation `point of X = x`, with `inv` inverting Jacobians. -/
def newtonStep (gdim n : ℕ) (geo : ℕ → ℕ → ℝ) (phi : (ℕ → ℝ) → ℕ → ℝ) (dphi : (ℕ → ℝ) → ℕ → ℕ → ℝ)
    (inv : (ℕ → ℕ → ℝ) → ℕ → ℕ → ℝ) (x X : ℕ → ℝ) (i : ℕ) : ℝ :=
  ∑ j ∈ range gdim, inv (jacobian n geo (dphi X)) i j * (x j - cellPoint n geo (phi X) j)

/-- Newton iterates from the origin. -/
def newtonIterate (gdim n : ℕ) (geo : ℕ → ℕ → ℝ) (phi : (ℕ → ℝ) → ℕ → ℝ) (dphi : (ℕ → ℝ) → ℕ → ℕ → ℝ)
    (inv : (ℕ → ℕ → ℝ) → ℕ → ℕ → ℝ) (x : ℕ → ℝ) : ℕ → ℕ → ℝ
  | 0 => fun _ => 0
  | k + 1 => fun i => newtonIterate gdim n geo phi dphi inv x k i
      + newtonStep gdim n geo phi dphi inv x (newtonIterate gdim n geo phi dphi inv x k) i

/-- The properties of the normal `n` of a facet with reference normal `nref` at a point where the
cell has Jacobian `J`: unit length, orthogonal to the image of every reference vector orthogonal to
`nref` (tangents of the facet), and pointing to the same side as the image of every reference vector
on the side of `nref`. -/
def IsFacetNormal (gdim tdim : ℕ) (J : ℕ → ℕ → ℝ) (nref n : ℕ → ℝ) : Prop :=
  ∑ i ∈ range gdim, n i ^ 2 = 1 ∧
  (∀ t : ℕ → ℝ, ∑ d ∈ range tdim, nref d * t d = 0 →
    ∑ i ∈ range gdim, n i * (∑ d ∈ range tdim, J i d * t d) = 0) ∧
  (∀ t : ℕ → ℝ, 0 < ∑ d ∈ range tdim, nref d * t d →
    0 < ∑ i ∈ range gdim, n i * (∑ d ∈ range tdim, J i d * t d))

end Verif.Geometry
