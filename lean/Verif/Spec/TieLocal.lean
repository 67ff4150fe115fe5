import Verif.Spec.TieSystem

/-!
Specification for C165: which dofs the tie acts on.
-/

namespace Verif.Spec

open Verif.TieData

/-- Dof `d` belongs to a cell. -/
def TieDofOf (E : TieElement) (cell d : ℕ) : Prop := ∃ a < E.nd, ∃ n < E.bs, d = E.bs * E.dofs cell a + n

/-- Dof `d` belongs to the cell of facet `e` of pair `i`, or to the cell of the closest point of one of its tied points. -/
def DofAtFacet (M : TieMesh) (E : TieElement) (i e d : ℕ) : Prop :=
  (∃ cell f, (M.facets i)[e]? = some (cell, f) ∧ TieDofOf E cell d)
  ∨ ∃ q < M.nq, Tied M i e q ∧ TieDofOf E (oppositeCell M i e q) d

/-- Two dofs are tied: both belong to the cells of one owned facet with a tied point. -/
def TiedDofs (M : TieMesh) (E : TieElement) (d c : ℕ) : Prop :=
  ∃ i < M.numPairs, ∃ e < M.localFacets i, (∃ q < M.nq, Tied M i e q) ∧ DofAtFacet M E i e d ∧ DofAtFacet M E i e c

end Verif.Spec
