import Verif.Spec.Detection
import Verif.Spec.Ray

/-!
Specification for C215: the two ways of finding the contact points.
-/

namespace Verif.DetectionModes

open Verif.Projection Verif.Kernels Verif.Spec Verif.Ray Finset

/-- Number of corners of a facet of a cell. -/
def corners : CellType → ℕ
  | .tetrahedron => 3
  | .hexahedron => 4
  | _ => 2

/-- `F` is the input of ray tracing for the facet `u` of the mesh `M` and the line through `x` with direction `n`:
the cell is the cell of `u`, which is affine, and the corners of the reference facet are sent to the nodes of `u`. -/
structure Traced (M : Cand) (g : ℕ) (u : ℕ × ℕ) (x n : ℕ → ℝ) (F : Facet) : Prop where
  gdim : F.dim.gdim = g
  solid : F.dim ≠ .d23
  cell : CellOf F.dim F.cell
  point : ∀ k < g, F.point k = x k
  tangents : F.tangents = computeTangents F.dim.gdim n
  affine : ∃ (a : ℕ → ℝ) (A : ℕ → ℕ → ℝ),
    (∀ X i, i < F.dim.gdim → cellImage F X i = a i + ∑ m ∈ range F.dim.tdim, A i m * X m)
    ∧ ∀ X i m, i < F.dim.gdim → m < F.dim.tdim → cellJacobian F X i m = A i m
  dxi : ∀ m j, m < F.dim.tdim → j < F.dim.tdim - 1 → F.dxi m j = F.vertex (j + 1) m - F.vertex 0 m
  corners : M.nf = corners F.cell
  nodes : ∀ j < M.nf, ∀ k < g, cellImage F (F.vertex j) k = facetNode M u j k
  square : F.cell = .hexahedron → ∀ m, F.vertex 3 m = F.vertex 1 m + F.vertex 2 m - F.vertex 0 m

end Verif.DetectionModes
