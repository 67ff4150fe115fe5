import Mathlib.Data.Real.Basic
import Mathlib.Algebra.BigOperators.Group.Finset.Basic

/-!
Vectors distributed over processes, and what the drivers of `one_sided/` and `helpers.py` do with them.
Every process holds a value for the dofs it owns and for its ghosts.  Dofs are named by their global number;
a process never reads a dof it does not hold.  `u.x.petsc_vec` and `u.x.array` share their memory, so a
vector and the function it belongs to are one object.
-/

namespace Verif.Distributed

open Finset

noncomputable section

/-- Values by process and global dof. -/
abbrev DVec := ℕ → ℕ → ℝ

/-- The distribution of the mesh and the element vectors of the forms: number of processes, owner of a dof,
cells and contact facets assembled by a process; `cellVec c x` is the element vector of the UFL form for the
dof values `x` the process holds, `facetVec f x` that of the contact kernel with coefficients packed from `x`,
both by global dof and zero for dofs the cell does not have; `cellMat` is the element matrix of the
derivative of the form. -/
structure Problem where
  procs : ℕ
  owner : ℕ → ℕ
  cells : ℕ → List ℕ
  facets : ℕ → List ℕ
  cellVec : ℕ → (ℕ → ℝ) → ℕ → ℝ
  facetVec : ℕ → (ℕ → ℝ) → ℕ → ℝ
  cellMat : ℕ → (ℕ → ℝ) → ℕ → ℕ → ℝ

/-- `ghostUpdate(INSERT, FORWARD)`: ghosts get the value of the owner. -/
def ghostForward (S : Problem) (v : DVec) : DVec := fun _ g => v (S.owner g) g

/-- `ghostUpdate(ADD, REVERSE)`: the owner gets the sum of the values of all processes. -/
def ghostReverseAdd (S : Problem) (v : DVec) : DVec := fun p g =>
  if p = S.owner g then ∑ r ∈ range S.procs, v r g else v p g

/-- Writing owned entries: `array_w[:] = …`, `axpy`. -/
def setOwned (S : Problem) (v : DVec) (y : ℕ → ℝ) : DVec := fun p g =>
  if p = S.owner g then y g else v p g

/-- `contact_assembler.assemble_vector(b, 0, kernel_rhs, …)` followed by
`_fem.petsc.assemble_vector(b, form)` on a zeroed vector: every process adds the element vectors of its
facets and cells to its local values, ghosts included; nothing is sent. -/
def assemble (S : Problem) (coeffs x : DVec) : DVec := fun p g =>
  ((S.facets p).map (fun f => S.facetVec f (coeffs p) g)).sum
    + ((S.cells p).map (fun c => S.cellVec c (x p) g)).sum

/-- The callbacks a driver gives to the Newton solver: `set_coefficients` and `set_residual`. -/
structure Driver where
  coefficients : DVec → DVec → DVec
  residual : DVec → DVec → DVec

/-- `one_sided/nitsche_custom.py:229-241`, `260-261`: the coefficient callback does nothing, the residual
callback copies the owned entries of `x` to `u` (the same memory), packs `u` and assembles. -/
def nitscheCustom (S : Problem) : Driver where
  coefficients := fun _ cf => cf
  residual := fun x _ => assemble S x x

/-- `one_sided/nitsche_rigid_surface_custom.py:274-297`: the coefficient callback packs `u`, the residual
callback assembles with the packed coefficients and the form of `u`. -/
def nitscheRigidSurfaceCustom (S : Problem) : Driver where
  coefficients := fun x _ => x
  residual := fun x cf => assemble S cf x

/-- State of the Newton solver that matters here: `x`, `_coeffs`, `_b`. -/
structure State where
  x : DVec
  coeffs : DVec
  b : DVec

/-- `newton_solver.py:312-325`: before the iteration: coefficients, `_pre_computation` (ghost update),
residual. -/
def start (S : Problem) (D : Driver) (st : State) : State :=
  let coeffs := D.coefficients st.x st.coeffs
  let x := ghostForward S st.x
  ⟨x, coeffs, D.residual x coeffs⟩

/-- `newton_solver.py:367-382` and `392-405`: a Newton update or a step of the line search, which gives the
owned entries of `x` new values `y`; then coefficients, `_post_solve` (ghost update), residual. -/
def trial (S : Problem) (D : Driver) (st : State) (y : ℕ → ℝ) : State :=
  let x := setOwned S st.x y
  let coeffs := D.coefficients x st.coeffs
  let x := ghostForward S x
  ⟨x, coeffs, D.residual x coeffs⟩

/-- The solver after the iterates `ys`. -/
def run (S : Problem) (D : Driver) (st : State) (ys : List (ℕ → ℝ)) : State :=
  ys.foldl (trial S D) (start S D st)

/-! ### `NonlinearPDE_SNESProblem` -/

/-- `helpers.py:168-178` `F`: ghost update of `x` and `u`, `F` set to zero, element vectors,
`apply_lifting(F, [a], bcs=[[bc]], x0=[x], alpha=-1.0)` (every cell subtracts `alpha A_e (g - x0)` over its
constrained dofs), reverse ghost update, `set_bc(F, [bc], x, -1.0)` (owned constrained entries become
`-1 * (g - x)`).  `bc` are the constrained dofs, `ud` their values, `n` the number of global dofs. -/
def snesF (S : Problem) (n : ℕ) (bc : ℕ → Bool) (ud : ℕ → ℝ) (x : DVec) : DVec :=
  let x := ghostForward S x
  let u := ghostForward S x
  let F : DVec := fun p g => ((S.cells p).map (fun c => S.cellVec c (u p) g)).sum
  let F : DVec := fun p g => F p g - ((S.cells p).map (fun c =>
    -1 * ∑ j ∈ range n, if bc j then S.cellMat c (u p) g j * (ud j - x p j) else 0)).sum
  let F := ghostReverseAdd S F
  fun p g => if p = S.owner g ∧ bc g = true then -1 * (ud g - x p g) else F p g

/-- `helpers.py:180-184` `J`: `assemble_matrix(J, a, [bc])` leaves out the rows and columns of constrained
dofs and puts ones on their diagonal; `assemble()` adds up the contributions of all processes.  The matrix is
evaluated at the `u` set by `F`. -/
def snesJ (S : Problem) (bc : ℕ → Bool) (u : ℕ → ℝ) (g j : ℕ) : ℝ :=
  if bc g || bc j then (if g = j then 1 else 0)
  else ∑ p ∈ range S.procs, ((S.cells p).map (fun c => S.cellMat c u g j)).sum

end

end Verif.Distributed
