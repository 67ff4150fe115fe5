import Verif.Spec.TieSystem
import Verif.Spec.Rotation

/-!
Specification for C151: tied bodies seen from another coordinate system.
-/

namespace Verif.Spec

open Verif.TieData Verif.Geometry Finset

noncomputable section

/-- The same tie in a coordinate system which is rotated (or reflected) by `Q` and shifted by `s`: the nodes,
gap vectors and normals are rotated; the facets, closest points and cell sizes are the same. -/
def rotatedTie (Q : ℕ → ℕ → ℝ) (s : ℕ → ℝ) (M : TieMesh) : TieMesh := { M with
  geo := { M.geo with
    x := fun k => if k % 3 < M.gdim then s (k % 3) + rotVec M.gdim Q (fun c => M.geo.x (3 * (k / 3) + c)) (k % 3)
      else M.geo.x k }
  gap := fun i k => rotVec M.gdim Q (fun c => M.gap i (k / M.gdim * M.gdim + c)) (k % M.gdim)
  ny := fun i k => rotVec M.gdim Q (fun c => M.ny i (k / M.gdim * M.gdim + c)) (k % M.gdim) }

/-- The same space: the basis functions have the same values, and their gradients at the closest points are
rotated. -/
def rotatedSpace (g : ℕ) (Q : ℕ → ℕ → ℝ) (E : TieElement) : TieElement := { E with
  grad := fun i c r k => rotVec g Q (E.grad i c r k) }

/-- What the library guarantees: `inv` returns the (pseudo-)inverse of every Jacobian that has a left
inverse, the surface factor of a facet depends on lengths and angles only, and the derivatives of the
coordinate element's basis functions sum to zero. -/
structure TieGeometryContract (M : TieMesh) : Prop where
  inv : ∀ J K : ℕ → ℕ → ℝ, LeftInverse M.gdim M.tdim K J → PseudoInverse M.gdim M.tdim (M.inv J) J
  det : ∀ (f : ℕ) (J J' : ℕ → ℕ → ℝ), (∀ a < M.tdim, ∀ b < M.tdim,
    ∑ c ∈ range M.gdim, J c a * J c b = ∑ c ∈ range M.gdim, J' c a * J' c b) → M.det f J = M.det f J'
  sums : ∀ r, ∀ j < M.tdim, ∑ n ∈ range M.geo.nx, M.cphi r (j + 1) n = 0

/-- The cells at the owned facets are not degenerate: their Jacobian has a left inverse. -/
def TieCellsInvertible (M : TieMesh) : Prop :=
  ∀ i < M.numPairs, ∀ e < M.localFacets i, ∀ cell f, (M.facets i)[e]? = some (cell, f) → ∀ q < M.nq,
    ∃ K, LeftInverse M.gdim M.tdim K (tieJacobian M cell (M.off f + q))

end

end Verif.Spec
