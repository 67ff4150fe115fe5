import Verif.Model.SnesDriver

/-!
`python/dolfinx_contact/one_sided/nitsche_ufl.py` and `nitsche_rigid_surface.py`: the drivers that leave the
Newton iteration to DOLFINx.  `dolfinx.fem.petsc.NonlinearProblem` and `dolfinx.nls.petsc.NewtonSolver` are
library code and modelled by what they are documented to do; the Krylov solver is a parameter.  The forms are
those of `Model/OneSided.lean`, the function space that of `Model/SnesDriver.lean` (one process).  Not modelled:
compiler and PETSc options, near null space, timers, printing.  `g_vec` of `nitsche_rigid_surface` is data of
the quadrature points (`Quad.gap`; its computation is `Model/RigidGap.lean`).
-/

namespace Verif.UflDriver

open Finset Verif.OneSided Verif.Snes

noncomputable section

/-- Residual and Jacobian form and the boundary conditions: `F`, `J`, `bcs` of `NonlinearProblem(F, u, bcs, J=J)`
(`nitsche_ufl.py:227-234`, `nitsche_rigid_surface.py:289`); `bc d` is the value prescribed for dof `d`. -/
structure Forms where
  F : Field → Field → ℝ
  J : Field → Field → Field → ℝ
  bc : ℕ → Option ℝ

/-- `assemble_matrix` of `J` without boundary conditions. -/
def tangent (P : Params) (M : Mesh) (S : Forms) (x : ℕ → ℝ) (d c : ℕ) : ℝ :=
  S.J (field P M x) (basis P M c) (basis P M d)

/-- `NonlinearProblem.F` (library): `assemble_vector`, `apply_lifting(b, [a], [bcs], x0=[x], alpha=-1.0)`,
`set_bc(b, bcs, x, -1.0)`. -/
def residual (P : Params) (M : Mesh) (S : Forms) (x : ℕ → ℝ) (d : ℕ) : ℝ :=
  match S.bc d with
  | some g => -1.0 * (g - x d)
  | none => S.F (field P M x) (basis P M d)
      - -1.0 * ∑ c ∈ range (numDofs P M), (match S.bc c with
        | some g => tangent P M S x d c * (g - x c)
        | none => 0)

/-- `NonlinearProblem.J` (library): `assemble_matrix(A, a, bcs)`: rows and columns of prescribed dofs are left out,
and one is set on the diagonal. -/
def jacobian (P : Params) (M : Mesh) (S : Forms) (x : ℕ → ℝ) (d c : ℕ) : ℝ :=
  if S.bc d = none ∧ S.bc c = none then tangent P M S x d c
  else if d = c then 1.0 else 0.0

/-- Attributes of the Newton solver (`nitsche_ufl.py:247-252`, `nitsche_rigid_surface.py:297-302`). -/
structure Options where
  atol : ℝ
  rtol : ℝ
  criterion : String
  maxIt : ℕ
  errorOnNonconvergence : Bool
  relaxation : ℝ

/-- `nitsche_ufl.py:247-252`: values for an empty `newton_options`. -/
def uflDefaults : Options := ⟨1e-9, 1e-9, "incremental", 50, true, 0.8⟩

/-- `nitsche_rigid_surface.py:297-302`: values for an empty `newton_options`. -/
def rigidDefaults : Options := ⟨1e-9, 1e-9, "incremental", 50, true, 1.0⟩

/-- The Krylov solver: the solution of the linear system, or `none` if it raises. -/
abbrev LinSolver := (ℕ → ℕ → ℝ) → (ℕ → ℝ) → Option (ℕ → ℝ)

/-- `VecNorm(NORM_2)` of a vector with `N` entries. -/
def norm2 (N : ℕ) (v : ℕ → ℝ) : ℝ := Real.sqrt (∑ d ∈ range N, v d ^ 2)

/-- Convergence test (library): the norm `r` is smaller than the tolerance, relative to `r0` or absolutely; the
quotient by zero is not smaller than anything. -/
def converged (o : Options) (r0 r : ℝ) : Prop := (r0 ≠ 0 ∧ r / r0 < o.rtol) ∨ r < o.atol

open Classical in
/-- The loop of `NewtonSolver.solve` (library), with `fuel` iterations left: solve, update with relaxation, and test;
the reference for relative tolerances is the norm of the first update, and with criterion `"incremental"` the first
iteration is never the last.  Iterations, converged, `x`. -/
def newtonLoop (P : Params) (M : Mesh) (S : Forms) (o : Options) (lin : LinSolver) :
    ℕ → ℕ → ℝ → (ℕ → ℝ) → Except String (ℕ × Bool × (ℕ → ℝ))
  | 0, it, _, x => .ok (it, false, x)
  | fuel + 1, it, r0, x =>
    match lin (jacobian P M S x) (residual P M S x) with
    | none => .error "RuntimeError"
    | some dx =>
      let x' := fun d => x d - o.relaxation * dx d
      let r0' := if it + 1 = 1 then norm2 (numDofs P M) dx else r0
      let done : Prop :=
        if o.criterion = "residual" then converged o r0' (norm2 (numDofs P M) (residual P M S x'))
        else it + 1 ≠ 1 ∧ converged o r0' (norm2 (numDofs P M) dx)
      if done then .ok (it + 1, true, x') else newtonLoop P M S o lin fuel (it + 1) r0' x'

open Classical in
/-- `NewtonSolver.solve` (library): with criterion `"residual"` the initial residual is tested, other names than
`"residual"` and `"incremental"` raise. -/
def newtonSolve (P : Params) (M : Mesh) (S : Forms) (o : Options) (lin : LinSolver) (x : ℕ → ℝ) :
    Except String (ℕ × Bool × (ℕ → ℝ)) :=
  if o.criterion ≠ "residual" ∧ o.criterion ≠ "incremental" then .error "RuntimeError"
  else if o.criterion = "residual" ∧ converged o 0 (norm2 (numDofs P M) (residual P M S x)) then .ok (0, true, x)
  else match newtonLoop P M S o lin o.maxIt 0 0 x with
    | .error e => .error e
    | .ok (n, conv, y) => if conv = false ∧ o.errorOnNonconvergence then .error "RuntimeError" else .ok (n, conv, y)

/-- `bcs` of `nitsche_ufl` (`nitsche_ufl.py:187-216`). -/
def uflBc (P : Params) (M : Mesh) (top : ℤ) (d : ℕ) : Option ℝ :=
  if P.nitscheBc then none
  else if bcDof P M top d then some (bcValue P d) else none

/-- `problem` of `nitsche_ufl` (`nitsche_ufl.py:227-234`). -/
def uflForms (P : Params) (M : Mesh) (Q : Quad) (top : ℤ) : Forms := ⟨uflF P Q, uflJ P Q, uflBc P M top⟩

/-- `nitsche_ufl` (`nitsche_ufl.py:29-285`); `mesh_data` is `(facet_marker, top, bottom)`, and `Q` has the quadrature
points of the facets with these values.  `rigid_motions_nullspace` asserts that the dimension is 2 or 3
(`helpers.py:200`).  The result is the number of iterations printed and `u`. -/
def nitscheUfl (P : Params) (M : Mesh) (Q : Quad) (top : ℤ) (o : Options) (lin : LinSolver) :
    Except String (ℕ × (ℕ → ℝ)) :=
  if M.markerDim ≠ M.tdim - 1 then .error "AssertionError"
  else if P.dim ≠ M.tdim then .error "AssertionError"
  else if P.dim ≠ 2 ∧ P.dim ≠ 3 then .error "AssertionError"
  else match newtonSolve P M (uflForms P M Q top) o lin (Snes.initial P) with
    | .error e => .error e
    | .ok (n, conv, u) => if o.errorOnNonconvergence ∧ conv = false then .error "AssertionError" else .ok (n, u)

/-- `bcs` of `nitsche_rigid_surface` (`nitsche_rigid_surface.py:141-196`): zero on the facets of the rigid body, the
displacement on those of the elastic one; the value set last counts. -/
def rigidBc (P : Params) (M : Mesh) (top rigid : ℤ) (d : ℕ) : Option ℝ :=
  if P.nitscheBc then none
  else if bcDof P M rigid d then some 0
  else if bcDof P M top d then some (bcValue P d) else none

/-- `problem` of `nitsche_rigid_surface` (`nitsche_rigid_surface.py:289`). -/
def rigidForms (P : Params) (M : Mesh) (Q : Quad) (top rigid : ℤ) : Forms := ⟨rigidF P Q, rigidJ P Q, rigidBc P M top rigid⟩

/-- `_u_initial` (`nitsche_rigid_surface.py:305-310`). -/
def rigidInitial (P : Params) (d : ℕ) : ℝ := if d % P.dim = P.dim - 1 then -0.01 else 0

/-- `nitsche_rigid_surface` (`nitsche_rigid_surface.py:30-336`); `top` and `rigid` are `dirichlet_value_elastic` and
`dirichlet_value_rigid`, the facets with the other values are in `Q`. -/
def nitscheRigidSurface (P : Params) (M : Mesh) (Q : Quad) (top rigid : ℤ) (o : Options) (lin : LinSolver) :
    Except String (ℕ × (ℕ → ℝ)) :=
  if M.markerDim ≠ M.tdim - 1 then .error "AssertionError"
  else if P.dim ≠ 2 ∧ P.dim ≠ 3 then .error "AssertionError"
  else match newtonSolve P M (rigidForms P M Q top rigid) o lin (rigidInitial P) with
    | .error e => .error e
    | .ok (n, conv, u) => if o.errorOnNonconvergence ∧ conv = false then .error "AssertionError" else .ok (n, u)

end

end Verif.UflDriver
