import Verif.Model.Packing

/-!
What the packing properties talk about: which parent cell a quadrature point is linked to, and how
the linked cells of a facet are numbered.
-/

namespace Verif.Packing.Spec

open Verif.Packing

/-- Quadrature point `q` of facet `i` has a facet on the opposite surface, in parent cell `c`. -/
def LinkedTo (P : PairData) (i q c : ℕ) : Prop :=
  ∃ f : ℕ, P.facets (i * P.nq + q) = f ∧ P.parentCells (P.subCell f) = c

/-- Position of component `l` of entry (facet, link, dof, point) in a packed array with `comps` components per
point. -/
def entry (P : PairData) (comps i link k q l : ℕ) : ℕ :=
  (((i * P.ml + link) * P.nd + k) * P.nq + q) * comps + l

/-- `L` lists the distinct parent cells linked to facet `i` in increasing order. -/
def IsLinkList (P : PairData) (i : ℕ) (L : List ℕ) : Prop :=
  L.Pairwise (· < ·) ∧ ∀ c, c ∈ L ↔ ∃ q, q < P.nq ∧ LinkedTo P i q c

/-- The points of facet `i` without a link come after all linked points (in particular: facets
where all points are linked, and facets where none is). -/
def LinkedFirst (P : PairData) (i : ℕ) : Prop :=
  ∀ q q', q' < q → q < P.nq → 0 ≤ P.facets (i * P.nq + q) → 0 ≤ P.facets (i * P.nq + q')

/-- No facet has more linked cells than there is room for. -/
def Fits (P : PairData) : Prop :=
  ∀ i, i < P.numFacets → ∀ L, IsLinkList P i L → L.length ≤ P.ml

/-- Among the cells linked to a facet, submesh cells and parent cells are numbered in the same order
(C26: `parent_cells` is increasing). -/
def ParentsIncreasing (P : PairData) : Prop :=
  ∀ i q q' f f' : ℕ, q < P.nq → q' < P.nq → P.facets (i * P.nq + q) = f →
      P.facets (i * P.nq + q') = f' → P.subCell f < P.subCell f' →
      P.parentCells (P.subCell f) < P.parentCells (P.subCell f')

end Verif.Packing.Spec
