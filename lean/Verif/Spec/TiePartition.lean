import Verif.Spec.TieSystem
import Verif.Spec.Partition

/-!
Specification for C148: tied bodies distributed over several processes.
-/

namespace Verif.Spec

open Verif.TieData Finset

/-- Cells the tie reads: cells of owned facets and cells opposite to their quadrature points. -/
def TieCell (M : TieMesh) (c : ℕ) : Prop :=
  ∃ i < M.numPairs, ∃ e < M.localFacets i, (∃ f, (M.facets i)[e]? = some (c, f)) ∨ ∃ q < M.nq, c = oppositeCell M i e q

/-- The process with data `M` holds a part of the mesh `Z`: owned facet `e` of pair `i` is facet `facet i e` of the whole
mesh, cell `c` of the process is cell `cell c`.  At the facet the process knows the same geometry, gaps, normals and cell
size, and the closest points lie in the same (possibly ghost) cells. -/
structure TiePartOf (M Z : TieMesh) (facet : ℕ → ℕ → ℕ) (cell : ℕ → ℕ) : Prop where
  sizes : M.numPairs = Z.numPairs ∧ M.nq = Z.nq ∧ M.gdim = Z.gdim ∧ M.tdim = Z.tdim
  library : M.off = Z.off ∧ M.weights = Z.weights ∧ M.nref = Z.nref ∧ M.inv = Z.inv ∧ M.det = Z.det
  own : ∀ i < Z.numPairs, ∀ e < M.localFacets i, ∃ c f, (M.facets i)[e]? = some (c, f)
    ∧ (Z.facets i)[facet i e]? = some (cell c, f)
  geometry : ∀ c, TieCell M c → ∀ r, tieJacobian M c r = tieJacobian Z (cell c) r
  opposite : ∀ i < Z.numPairs, ∀ e < M.localFacets i, ∀ q < Z.nq, cell (oppositeCell M i e q) = oppositeCell Z i (facet i e) q
  gap : ∀ i < Z.numPairs, ∀ e < M.localFacets i, ∀ q < Z.nq, ∀ a < Z.gdim,
    M.gap i ((e * Z.nq + q) * Z.gdim + a) = Z.gap i ((facet i e * Z.nq + q) * Z.gdim + a)
    ∧ M.ny i ((e * Z.nq + q) * Z.gdim + a) = Z.ny i ((facet i e * Z.nq + q) * Z.gdim + a)
  size : ∀ i < Z.numPairs, ∀ e < M.localFacets i, M.h i e = Z.h i (facet i e)

/-- A function space on the part: dof `d` of the process is dof `dof d`. -/
structure ElementPartOf (M Z : TieMesh) (E F : TieElement) (facet : ℕ → ℕ → ℕ) (cell dof : ℕ → ℕ) : Prop where
  element : E.nd = F.nd ∧ E.bs = F.bs ∧ E.phi = F.phi ∧ E.dphi = F.dphi ∧ E.phi0 = F.phi0
  dofs : ∀ c, TieCell M c → ∀ a < F.nd, dof (E.dofs c a) = F.dofs (cell c) a
  basis : ∀ i < Z.numPairs, ∀ e < M.localFacets i, ∀ q < Z.nq, ∀ a < F.nd,
    E.basis i (e * Z.nq + q) a = F.basis i (facet i e * Z.nq + q) a
    ∧ ∀ b < Z.gdim, E.grad i (oppositeCell M i e q) (e * Z.nq + q) a b
      = F.grad i (oppositeCell Z i (facet i e) q) (facet i e * Z.nq + q) a b

/-- Every facet of the whole mesh is owned by exactly one process. -/
def TieOwnedOnce (P : ℕ) (M : ℕ → TieMesh) (Z : TieMesh) (facet : ℕ → ℕ → ℕ → ℕ) : Prop :=
  ∀ i < Z.numPairs,
    (∀ p < P, ∀ e < (M p).localFacets i, facet p i e < Z.localFacets i)
    ∧ ∀ E < Z.localFacets i, ∃ p < P, ∃ e < (M p).localFacets i, facet p i e = E
      ∧ ∀ p' < P, ∀ e' < (M p').localFacets i, facet p' i e' = E → p' = p ∧ e' = e

/-- A process ties the same points of its facets as a single process would. -/
def SameTies (M Z : TieMesh) (facet : ℕ → ℕ → ℕ) : Prop :=
  ∀ i < Z.numPairs, ∀ e < M.localFacets i, ∀ q < Z.nq, Tied M i e q ↔ Tied Z i (facet i e) q

/-- The material parameters of a process are those of the whole mesh. -/
def SameMaterial (M Z : TieMesh) (EQ FQ : TieElement) (mat mat' : Key → ℕ → ℝ) (facet : ℕ → ℕ → ℕ) : Prop :=
  ∀ i < Z.numPairs, ∀ e < M.localFacets i, ∀ c c' f, (M.facets i)[e]? = some (c, f) → (Z.facets i)[facet i e]? = some (c', f) →
    ∀ k, midValue EQ c f (mat k) = midValue FQ c' f (mat' k)

end Verif.Spec
