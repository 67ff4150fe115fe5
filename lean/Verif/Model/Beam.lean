import Verif.Model.UflDriver

/-!
`python/demos/new_demo_nitsche_euler_bernoulli.py`: `solve_euler_bernoulli`, a beam clamped on the left, strongly or with
Nitsche's method, and loaded on the top, solved as a linear problem or by the Newton solver of DOLFINx.
`dolfinx.fem.petsc.LinearProblem` is library code and modelled by what it is documented to do; `NonlinearProblem` and
`NewtonSolver` are those of `Model/UflDriver.lean`. Function space, mesh and data of quadrature points are those of
`Model/SnesDriver.lean` and `Model/OneSided.lean`; the points of `ds(left_marker)` are `Quad.dirichlet`, those of
`ds(top_marker)` are `Quad.contact`. Not modelled: creation of the mesh, output, evaluation of the deflection at the tip.
-/

namespace Verif.Beam

open Finset Verif.OneSided Verif.Snes Verif.UflDriver

noncomputable section

/-- `g = ufl.as_vector((0, -rho_g))` (`new_demo_nitsche_euler_bernoulli.py:80`). -/
def surfaceLoad (rho : ℝ) (i : ℕ) : ℝ := if i = 1 then -rho else 0

/-- `E * gamma / h` with `h = 2 * ufl.Circumradius(mesh)` (`new_demo_nitsche_euler_bernoulli.py:74`, `new_demo_nitsche_euler_bernoulli.py:101`). -/
def penalty (P : Params) (Q : Quad) (k : ℕ) : ℝ := P.E * P.gamma / (2 * Q.circ k)

/-- The form `F` (`new_demo_nitsche_euler_bernoulli.py:88-102`) for a function `u`. -/
def beamF (P : Params) (Q : Quad) (rho : ℝ) (u v : Field) : ℝ :=
  integral Q Q.cells (fun k => elastic P (u k) (v k))
    - integral Q Q.cells (fun k => dotV P.dim (fun _ => 0) (v k).val)
    - integral Q Q.contact (fun k => dotV P.dim (surfaceLoad rho) (v k).val)
    + if P.nitscheBc then
        integral Q Q.dirichlet (fun k => dirichletF P (Q.n k) (fun _ => 0) (penalty P Q k) (u k) (v k))
      else 0

/-- The part of `F` that is linear in `u`: `ufl.lhs(F)` for a trial function (`new_demo_nitsche_euler_bernoulli.py:115`), and the derivative of `F` with
respect to `u` that `NonlinearProblem(F, u, bcs)` computes (`new_demo_nitsche_euler_bernoulli.py:123`). -/
def beamA (P : Params) (Q : Quad) (du v : Field) : ℝ :=
  integral Q Q.cells (fun k => elastic P (du k) (v k))
    + if P.nitscheBc then
        integral Q Q.dirichlet (fun k => dirichletJ P (Q.n k) (penalty P Q k) (du k) (v k))
      else 0

/-- `ufl.rhs(F)` (`new_demo_nitsche_euler_bernoulli.py:116`): minus the part of `F` without `u`; the terms with `u_D` vanish. -/
def beamL (P : Params) (Q : Quad) (rho : ℝ) (v : Field) : ℝ :=
  integral Q Q.cells (fun k => dotV P.dim (fun _ => 0) (v k).val)
    + integral Q Q.contact (fun k => dotV P.dim (surfaceLoad rho) (v k).val)

/-- `bcs` (`new_demo_nitsche_euler_bernoulli.py:103-110`). -/
def beamBc (P : Params) (M : Mesh) (left : ℤ) (d : ℕ) : Option ℝ :=
  if P.nitscheBc then none
  else if bcDof P M left d then some 0 else none

/-- `NonlinearProblem(F, u, bcs)` (`new_demo_nitsche_euler_bernoulli.py:123`). -/
def beamForms (P : Params) (M : Mesh) (Q : Quad) (rho : ℝ) (left : ℤ) : Forms :=
  ⟨beamF P Q rho, fun _ => beamA P Q, beamBc P M left⟩

/-- The right hand side in `LinearProblem.solve` (library): `assemble_vector`, `apply_lifting(b, [a], bcs=[bcs])`,
`set_bc(b, bcs)`. -/
def linearRhs (P : Params) (M : Mesh) (Q : Quad) (rho : ℝ) (left : ℤ) (d : ℕ) : ℝ :=
  match beamBc P M left d with
  | some g => g
  | none => beamL P Q rho (basis P M d)
      - ∑ c ∈ range (numDofs P M), (match beamBc P M left c with
        | some g => beamA P Q (basis P M c) (basis P M d) * g
        | none => 0)

/-- The matrix in `LinearProblem.solve` (library): `assemble_matrix(A, a, bcs)`. -/
def linearMat (P : Params) (M : Mesh) (Q : Quad) (left : ℤ) (d c : ℕ) : ℝ :=
  if beamBc P M left d = none ∧ beamBc P M left c = none then beamA P Q (basis P M c) (basis P M d)
  else if d = c then 1.0 else 0.0

/-- Options of the Newton solver (`new_demo_nitsche_euler_bernoulli.py:127-129`); the others have their default values. -/
def beamOptions : Options := ⟨1e-6, 1e-6, "incremental", 50, true, 1.0⟩

/-- `solve_euler_bernoulli` (`new_demo_nitsche_euler_bernoulli.py:26-135`): the displacement written, and the number of iterations printed if the problem
is not solved as a linear problem. The new `Function(V)` is zero. -/
def solveBeam (P : Params) (M : Mesh) (Q : Quad) (rho : ℝ) (left : ℤ) (linear : Bool) (lin : LinSolver) :
    Except String (Option ℕ × (ℕ → ℝ)) :=
  if linear then
    match lin (linearMat P M Q left) (linearRhs P M Q rho left) with
    | none => .error "RuntimeError"
    | some u => .ok (none, u)
  else
    match newtonSolve P M (beamForms P M Q rho left) beamOptions lin (fun _ => 0) with
    | .error e => .error e
    | .ok (n, conv, u) => if conv = false then .error "AssertionError" else .ok (some n, u)

end

end Verif.Beam
