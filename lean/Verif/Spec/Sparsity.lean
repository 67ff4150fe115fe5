import Verif.Model.System
import Verif.Model.TieSystem

/-!
Specification for the sparsity pattern of the contact matrix (C142).
-/

namespace Verif.Spec

open Verif.ContactProblem Verif.TieData

/-- The sparsity pattern of the bilinear form holds all pairs of dofs of each cell at the contact surfaces. -/
def FormPattern {G : Type} (Y : System G) (form : List (ℕ × ℕ)) : Prop :=
  (∀ i < Y.numPairs, ∀ p ∈ Y.facets i, ∀ a < Y.nd, ∀ b < Y.nd, (Y.space.parent p.1 a, Y.space.parent p.1 b) ∈ form)
  ∧ ∀ c < Y.space.numCells, ∀ a < Y.nd, ∀ b < Y.nd,
    (Y.space.parent (Y.space.parentCell c) a, Y.space.parent (Y.space.parentCell c) b) ∈ form

/-- The same for tied surfaces. -/
def TieFormPattern (M : TieMesh) (E : TieElement) (form : List (ℕ × ℕ)) : Prop :=
  (∀ i < M.numPairs, ∀ p ∈ M.facets i, ∀ a < E.nd, ∀ b < E.nd, (E.dofs p.1 a, E.dofs p.1 b) ∈ form)
  ∧ ∀ c < M.numCells, ∀ a < E.nd, ∀ b < E.nd, (E.dofs (M.parentCell c) a, E.dofs (M.parentCell c) b) ∈ form

end Verif.Spec
