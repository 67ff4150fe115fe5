import Verif.Props.Projection

/-!
Specification for C152: closest points found by a process which holds a part of the candidate facets.
-/

namespace Verif.Projection

open Verif.Geometry Verif.Packing Verif.Kernels Verif.Normals Finset

/-- Input of the closest point search, as for C93: a mesh of affine cells in `g` dimensions, candidate facets on its boundary,
and library functions that keep their contracts. -/
structure SearchInput (M : Cand) (L : Library) (g d : ℕ) (fc cf : ℕ → List ℕ) (tuples : List (ℕ × ℕ)) : Prop where
  f2c : M.f2c = some fc
  c2f : M.c2f = some cf
  cell : M.cell = .triangle ∨ M.cell = .quadrilateral ∨ M.cell = .tetrahedron ∨ M.cell = .hexahedron
  nonempty : tuples ≠ []
  gdim : M.C.gdim = g
  tdim : d = 2 ∨ d = 3
  flat : Flat g M.G
  affine : M.C.affine = true
  closure : ∀ lf j, j < M.nf → M.closure lf j < M.C.ndofs
  nf : 0 < M.nf
  cells : ∀ t ∈ tuples, AffineCell M.C M.G t.1
  exterior : Exterior fc cf tuples
  gjk : GjkContract L
  closest : ClosestContract M L cf tuples

noncomputable section

/-- Distance of two points. -/
def distance (gdim : ℕ) (x y : ℕ → ℝ) : ℝ := Real.sqrt (sqLen gdim (fun k => x k - y k))

/-- Midpoint of a candidate facet: the mean of its nodes. -/
def facetMid (M : Cand) (t : ℕ × ℕ) (k : ℕ) : ℝ := (∑ j ∈ range M.nf, facetNode M t j k) / M.nf

/-- Facet `t` of mesh `M` and facet `t'` of mesh `M'` have the same nodes. -/
def SameFacet (gdim : ℕ) (M M' : Cand) (t t' : ℕ × ℕ) : Prop :=
  M.nf = M'.nf ∧ ∀ j < M.nf, ∀ k < gdim, facetNode M t j k = facetNode M' t' j k

/-- The contact point stored for entry `r` of the map, when it is linked to facet `t`: the image of the
reference point in the cell of the facet. -/
def contactPoint (M : Cand) (map : Map) (t : ℕ × ℕ) (r : ℕ) : ℕ → ℝ :=
  cellPoint M.C.ndofs (fun j k => M.G.x (3 * M.G.xdof t.1 j + k)) (M.C.phi (map.2 r))

/-- `y` is a point of a candidate facet, and none is nearer to `x`. -/
def IsNearest (gdim : ℕ) (M : Cand) (tuples : List (ℕ × ℕ)) (x y : ℕ → ℝ) : Prop :=
  (∃ t ∈ tuples, InHull gdim M.nf (facetNode M t) y)
  ∧ ∀ t ∈ tuples, ∀ z, InHull gdim M.nf (facetNode M t) z → distance gdim y x ≤ distance gdim z x

end

end Verif.Projection
