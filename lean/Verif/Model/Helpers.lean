import Verif.Model.Scalars

/-!
`python/dolfinx_contact/helpers.py`: derivatives of the ball projection, comparison of matrices.
-/

namespace Verif.Helpers

open Finset

noncomputable section

/-- `helpers.py:121-130` `d_ball_projection(x, s, dim)` (UFL expression evaluated at a point), entry `i, j`. -/
def pyDBallProjection (dim : ℕ) (x : ℕ → ℝ) (s : ℝ) (i j : ℕ) : ℝ :=
  let absX := Real.sqrt (∑ i ∈ range dim, x i ^ 2)
  if absX ≤ s then (if i = j then 1 else 0)
  else s / absX * ((if i = j then 1 else 0) - x i / absX * (x j / absX))

/-- `helpers.py:133-142` `d_alpha_ball_projection(x, alpha, d_alpha, dim)`, entry `i`. -/
def pyDAlphaBallProjection (dim : ℕ) (x : ℕ → ℝ) (alpha dAlpha : ℝ) (i : ℕ) : ℝ :=
  let absX := Real.sqrt (∑ i ∈ range dim, x i ^ 2)
  if absX ≤ alpha then 0 else dAlpha * x i / absX

/-- A PETSc matrix as a process sees it: global size, and the owned rows as `getValuesCSR` returns them,
column and value of each stored entry (columns of a row are distinct). -/
structure PetscMat where
  size : ℕ × ℕ
  rows : List (List (ℕ × ℝ))

/-- Entry of the csr matrix: stored value, or zero. -/
def PetscMat.entry (a : PetscMat) (i j : ℕ) : ℝ :=
  (((a.rows.getD i []).find? (fun p => p.1 = j)).map Prod.snd).getD 0

/-- What a call can do. -/
inductive Result where
  | passes
  | assertionError
  | valueError
  deriving DecidableEq

/-- `scipy.sparse.csr_matrix((av, aj, ai), shape=a.getSize())` raises `ValueError` unless `ai` has one entry
more than the shape has rows. -/
def PetscMat.toCsrRaises (a : PetscMat) : Bool := a.rows.length ≠ a.size.1

/-- `diff.max()` where `diff = abs(a_sp - b_sp)`: stored and implicit zero entries; `size ≠ 0`. -/
def maxDiff (a b : PetscMat) : ℝ :=
  ((List.range a.size.1).flatMap (fun i => (List.range a.size.2).map (fun j => |a.entry i j - b.entry i j|))).foldl max 0

/-- `helpers.py:39-51` `compare_matrices`.  Subtracting matrices of different shape and the maximum of a matrix
without entries raise `ValueError`. -/
def compareMatrices (a b : PetscMat) (atol : ℝ) : Result := by
  classical
  exact if a.toCsrRaises then .valueError
    else if b.toCsrRaises then .valueError
    else if a.size ≠ b.size then .valueError
    else if a.size.1 * a.size.2 = 0 then .valueError
    else if maxDiff a b ≤ atol then .passes else .assertionError

end

end Verif.Helpers
