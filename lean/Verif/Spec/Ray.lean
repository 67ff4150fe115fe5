import Verif.Model.RayTracing
import Verif.Spec.Geometry

/-! Specification vocabulary for ray tracing. -/

namespace Verif.Spec

open Finset Verif.Kernels

/-- Parameters inside the reference facet, enlarged by `tol` (interval, triangle or square). -/
def InFacet (c : CellType) (tol : ℝ) (xi : ℕ → ℝ) : Prop :=
  match c with
  | .triangle | .quadrilateral => -tol ≤ xi 0 ∧ xi 0 ≤ 1 + tol
  | .tetrahedron => -tol ≤ xi 0 ∧ xi 0 ≤ 1 + tol ∧ -tol ≤ xi 1 ∧ xi 0 + xi 1 ≤ 1 + tol
  | .hexahedron => -tol ≤ xi 0 ∧ xi 0 ≤ 1 + tol ∧ -tol ≤ xi 1 ∧ xi 1 ≤ 1 + tol
  | _ => False

/-- Cell types that have facets of the dimension of the instance. -/
def CellOf (d : Ray.Dim) (c : CellType) : Prop :=
  match d with
  | .d22 | .d23 => c = .triangle ∨ c = .quadrilateral
  | .d33 => c = .tetrahedron ∨ c = .hexahedron

/-- Reference point with parameters `xi` on a facet: the affine map that sends the corners of the parameter
interval, triangle or square to the vertices. -/
def facetRef (F : Ray.Facet) (xi : ℕ → ℝ) (i : ℕ) : ℝ :=
  F.vertex 0 i + ∑ j ∈ range (F.dim.tdim - 1), (F.vertex (j + 1) i - F.vertex 0 i) * xi j

/-- Image of a reference point in the cell. -/
def cellImage (F : Ray.Facet) (X : ℕ → ℝ) : ℕ → ℝ := Geometry.cellPoint F.ndofs F.coords (F.phi X)

/-- Jacobian of the cell at a reference point. -/
def cellJacobian (F : Ray.Facet) (X : ℕ → ℝ) : ℕ → ℕ → ℝ := Geometry.jacobian F.ndofs F.coords (F.dphi X)

/-- Distance of the facet point from the ray in the direction of tangent `j`. -/
def rayMiss (F : Ray.Facet) (xi : ℕ → ℝ) (j : ℕ) : ℝ :=
  ∑ i ∈ range F.dim.gdim, (cellImage F (facetRef F xi) i - F.point i) * F.tangents j i

/-- Derivative of `rayMiss i` with respect to parameter `j`, where column `j` of `dxi` is the derivative of the
reference point. -/
def rayDeriv (F : Ray.Facet) (xi : ℕ → ℝ) (i j : ℕ) : ℝ :=
  ∑ l ∈ range F.dim.gdim,
    (∑ m ∈ range F.dim.tdim, cellJacobian F (facetRef F xi) l m * F.dxi m j) * F.tangents i l

/-- Determinant of the derivative; for a curve in space its length. -/
noncomputable def rayDet (F : Ray.Facet) (xi : ℕ → ℝ) : ℝ :=
  match F.dim with
  | .d22 => rayDeriv F xi 0 0
  | .d33 => rayDeriv F xi 0 0 * rayDeriv F xi 1 1 - rayDeriv F xi 0 1 * rayDeriv F xi 1 0
  | .d23 => Real.sqrt (rayDeriv F xi 0 0 * rayDeriv F xi 0 0 + rayDeriv F xi 1 0 * rayDeriv F xi 1 0)

/-- Newton step: solution of the linearised equations by Cramer's rule; for a curve in space the least squares
solution. -/
noncomputable def rayStep (F : Ray.Facet) (xi : ℕ → ℝ) (i : ℕ) : ℝ :=
  match F.dim with
  | .d22 => rayMiss F xi 0 / rayDeriv F xi 0 0
  | .d33 =>
    (if i = 0 then rayDeriv F xi 1 1 * rayMiss F xi 0 - rayDeriv F xi 0 1 * rayMiss F xi 1
      else rayDeriv F xi 0 0 * rayMiss F xi 1 - rayDeriv F xi 1 0 * rayMiss F xi 0) /
        (rayDeriv F xi 0 0 * rayDeriv F xi 1 1 - rayDeriv F xi 0 1 * rayDeriv F xi 1 0)
  | .d23 => (rayDeriv F xi 0 0 * rayMiss F xi 0 + rayDeriv F xi 1 0 * rayMiss F xi 1) /
        (rayDeriv F xi 0 0 * rayDeriv F xi 0 0 + rayDeriv F xi 1 0 * rayDeriv F xi 1 0)

/-- Newton iterates, from a point in the middle of the facet. -/
noncomputable def rayIterate (F : Ray.Facet) : ℕ → ℕ → ℝ
  | 0 => fun j => if F.dim = .d33 ∧ j ≠ 0 then 1 / 4 else 1 / 2
  | k + 1 => fun i => rayIterate F k i - rayStep F (rayIterate F k) i

/-- The iteration stops: singular derivative or short step. -/
def RayStops (F : Ray.Facet) (tol : ℝ) (xi : ℕ → ℝ) : Prop :=
  |rayDet F xi| < tol ∨ ∑ i ∈ range (F.dim.tdim - 1), rayStep F xi i ^ 2 < tol ^ 2

/-- Unit vectors, orthogonal to each other and to `n`. -/
structure OrthonormalComplement (gdim : ℕ) (n : ℕ → ℝ) (t : ℕ → ℕ → ℝ) : Prop where
  normal : ∀ r, r < gdim - 1 → ∑ i ∈ range gdim, t r i * n i = 0
  unit : ∀ r, r < gdim - 1 → ∑ i ∈ range gdim, t r i * t r i = 1
  orth : ∀ r s, r < gdim - 1 → s < gdim - 1 → r ≠ s → ∑ i ∈ range gdim, t r i * t s i = 0

end Verif.Spec
