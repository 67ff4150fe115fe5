import Verif.Model.Newton
import Verif.Model.System
import Mathlib.Analysis.Real.Sqrt

/-!
The driver of a contact computation with load steps: `python/demos/demo_nitsche_unbiased.py:427-510`
(`box_key_3D.py`, `demo_sliding_wedges.py`, `new_demo_christmas_tree.py` contain the same functions): the
callbacks `compute_coefficients`, `compute_residual`, `compute_jacobian_matrix` given to `NewtonSolver`, and
the loop over the load steps.

Not modelled: output, timers, near null space, ghost values (one process).
-/

namespace Verif.ContactProblem

open Verif.Packing Verif.Assembly

noncomputable section

/-- The forms and boundary conditions of a load step (`demo_nitsche_unbiased.py:366-390`, `493-497`): `bulk`
is the vector of `F_compiled` and `stiff` the matrix of `J_compiled` (without boundary conditions) as
functions of the displacement `u + du`, `bc` the prescribed value of a dof of `du`, if any (`lifting`; with
weak conditions there are none and the forms depend on the load). -/
structure LoadCase where
  bulk : (ℕ → ℝ) → ℕ → ℝ
  stiff : (ℕ → ℝ) → ℕ → ℕ → ℝ
  bc : ℕ → Option ℝ

variable {G : Type} (Y : System G)

/-- Library and user data which stay the same in all load steps: the number of dofs, the Krylov solver (see
`Newton.Problem`), and the geometry which `update_submesh_geometry(u)` sets (`SubMesh.cpp:200-223`: the
coordinates of the parent mesh plus `u`, independent of the geometry before; C29). -/
structure Setting (G : Type) where
  numDofs : ℕ
  linSolve : (ℕ × ℕ → ℝ) → (ℕ → ℝ) → (ℕ → ℝ) → (ℕ → ℝ) × ℕ × ℤ
  place : (ℕ → ℝ) → G

variable (Z : Setting G)

/-- `demo_nitsche_unbiased.py:428-433` `compute_coefficients`: `du` gets the values of `x`. Simplification:
the state after an exception is used as if there was none (proved not to happen, C139). -/
def driverCoefficients (x : ℕ → ℝ) (s : State G) : State G :=
  after (updateContactData Y.static (Y.du x) s)

/-- The vector after `contact_problem.assemble_vector(b, V)` on a zero vector. Simplification: zero if it
raises (proved not to happen, C139). -/
def contactVector (s : State G) : Arr ℕ :=
  match Y.assembleVector s 0 with
  | .ok b => b
  | .error _ => 0

/-- The matrix after `contact_problem.assemble_matrix(a_mat, V)` on a zero matrix. -/
def contactMatrix (s : State G) : Arr (ℕ × ℕ) :=
  match Y.assembleMatrix s 0 with
  | .ok A => A
  | .error _ => 0

/-- `demo_nitsche_unbiased.py:435-450` `compute_residual`, `u` is the displacement of earlier load steps:
contact, then `F_compiled`, then `apply_lifting(b, [J], [bcs], x0=[x], alpha=-1.0)`, which subtracts `alpha`
times the columns of prescribed dofs times `g - x0`, then `set_bc(b, bcs, x, -1.0)`, which sets the entries of
prescribed dofs to `-1.0 * (g - x)`. -/
def driverResidual (L : LoadCase) (u x : ℕ → ℝ) (s : State G) : ℕ → ℝ :=
  let b := contactVector Y s
  let b := fun d => b d + L.bulk (fun c => u c + x c) d
  let b := fun d => b d - (-1.0) * ∑ c ∈ Finset.range Z.numDofs,
    (L.bc c).elim 0 (fun g => L.stiff (fun c => u c + x c) d c * (g - x c))
  fun d => (L.bc d).elim (b d) (fun g => -1.0 * (g - x d))

/-- `demo_nitsche_unbiased.py:452-459` `compute_jacobian_matrix`: contact, then `J_compiled` without the rows
and columns of prescribed dofs, whose diagonal entries are set to one. -/
def driverJacobian (L : LoadCase) (u x : ℕ → ℝ) (s : State G) : ℕ × ℕ → ℝ :=
  let A := contactMatrix Y s
  let A := fun dc : ℕ × ℕ =>
    if L.bc dc.1 = none ∧ L.bc dc.2 = none then A dc + L.stiff (fun c => u c + x c) dc.1 dc.2 else A dc
  fun dc => if dc.1 = dc.2 ∧ L.bc dc.1 ≠ none then 1 else A dc

/-- `Vec.norm(NORM_2)`. -/
def norm2 (n : ℕ) (x : ℕ → ℝ) : ℝ := Real.sqrt (∑ d ∈ Finset.range n, x d ^ 2)

/-- What the Newton solver gets (`demo_nitsche_unbiased.py:466-470`). -/
def driverProblem (L : LoadCase) (u : ℕ → ℝ) : Newton.Problem (ℕ → ℝ) (ℕ → ℝ) (ℕ × ℕ → ℝ) (State G) where
  coefficients := driverCoefficients Y
  residual := driverResidual Y Z L u
  jacobian := driverJacobian Y L u
  linSolve := Z.linSolve
  normB := norm2 Z.numDofs
  normV := norm2 Z.numDofs
  pre := fun x => x
  post := fun x => x

/-- The solver, with the increment `du` it works on and the contact problem, and the displacement `u`. -/
structure Run (G : Type) where
  solver : Newton.St (ℕ → ℝ) (ℕ → ℝ) (State G)
  u : ℕ → ℝ

/-- What a load step has computed: iterations, whether the solver reported convergence, the displacement
before the step, the increment. -/
structure Report where
  its : ℕ
  converged : Bool
  before : ℕ → ℝ
  du : ℕ → ℝ

/-- Exceptions of the loop. -/
inductive DriverErr where
  | newton (e : Newton.Err)
  | contact (e : Err)

/-- `demo_nitsche_unbiased.py:500-510`: body of the loop over load steps. -/
def loadStep (rank0 : Bool) (L : LoadCase) (r : Run G) : Except DriverErr (Report × Run G) :=
  match Newton.solve (driverProblem Y Z L r.u) rank0 .function r.solver with
  | (_, .error e) => .error (.newton e)
  | (s, .ok (n, conv)) =>
    let u := fun d => r.u d + s.x d
    match updateDetection Y.static (fun _ => Z.place u) (Y.packGrad u) s.coeffs with
    | .error e => .error (.contact e.1)
    | .ok c =>
      let du := fun d => 0.1 * s.x d
      match updateContactData Y.static (Y.du du) c with
      | .error e => .error (.contact e.1)
      | .ok c => .ok (⟨n, conv, r.u, s.x⟩, ⟨{ s with coeffs := c, x := du }, u⟩)

/-- `demo_nitsche_unbiased.py:492-511`: the loop over load steps. -/
def loadSteps (rank0 : Bool) : List LoadCase → Run G → List Report × Option DriverErr
  | [], _ => ([], none)
  | L :: Ls, r =>
    match loadStep Y Z rank0 L r with
    | .error e => ([], some e)
    | .ok (R, r) =>
      let out := loadSteps rank0 Ls r
      (R :: out.1, out.2)

/-- `demo_nitsche_unbiased.py:351-352`, `413-425`, `466-482`: `u` and `du` are zero, the contact problem is
created and `generate_contact_data` called with arguments `a`, the solver has options `opts` and, after
`set_newton_options`, a relaxation parameter. -/
def startRun (a : GenArgs G) (opts : Newton.Opts) : Run G where
  solver := { Newton.St.init (fun _ => 0) (after (generate Y.static a (init Y.static (Z.place fun _ => 0))))
      (fun _ => 0) with opts := opts, relax := some 1.0 }
  u := fun _ => 0

end

end Verif.ContactProblem
