import Verif.Model.Driver
import Verif.Model.ThermoDemo
import Verif.Model.OneSided

/-!
The demos with thermal expansion and contact: `python/demos/demo_thermo_mech_xmas2D.py` and
`python/demos/demo_thermo_mech_boxkey3D.py`.  Lines are those of the first, the second contains the same code.

Not modelled: meshes, markers, output, near null space, ghost values (one process).
-/

namespace Verif.ThermoContact

open Verif.ContactProblem Verif.OneSided Finset
open Verif.TieData (bcMatrix bcVector)

noncomputable section

/-- The thermal problem (`demo_thermo_mech_xmas2D.py:62-82`): the matrices `mass` of `q * r * dx` and `grad` of
`inner(grad(q), grad(r)) * dx`, the constants `kdt` and `tau`, the prescribed temperatures `bc` of `[Tbc, Tbc2]` (the last one if a
dof belongs to both), and the linear solver of `LinearProblem`, a function of matrix, right-hand side and initial guess. -/
structure Thermal where
  numDofs : ℕ
  mass : ℕ → ℕ → ℝ
  grad : ℕ → ℕ → ℝ
  kdt : ℝ
  tau : ℝ
  bc : ℕ → Option ℝ
  solve : (ℕ × ℕ → ℝ) → (ℕ → ℝ) → (ℕ → ℝ) → ℕ → ℝ

/-- `demo_thermo_mech_xmas2D.py:67-69`: the matrix of `a_therm = lhs(therm)`. -/
def Thermal.lhs (H : Thermal) (d c : ℕ) : ℝ := H.mass d c + H.kdt * (H.tau * H.grad d c)

/-- `demo_thermo_mech_xmas2D.py:67-69`: the vector of `L_therm = rhs(therm)` at temperature `T`. -/
def Thermal.rhs (H : Thermal) (T : ℕ → ℝ) (d : ℕ) : ℝ :=
  ∑ c ∈ range H.numDofs, H.mass d c * T c - H.kdt * ((1 - H.tau) * ∑ c ∈ range H.numDofs, H.grad d c * T c)

/-- `demo_thermo_mech_xmas2D.py:278` `Tproblem.solve()`: `LinearProblem.solve` by contract (assemble the matrix with boundary
conditions, the vector, `apply_lifting`, `set_bc`, solve); the solution is written to `T0` (`u=T0`), which the right-hand side was
assembled with. -/
def Thermal.step (H : Thermal) (T : ℕ → ℝ) : ℕ → ℝ :=
  H.solve (bcMatrix H.bc 0 H.lhs) (bcVector H.numDofs H.bc H.lhs (fun _ => 0) 1.0 (H.rhs T)) T

/-- The mechanical problem without contact (`demo_thermo_mech_xmas2D.py:125-150`): `stiff` is the matrix of `J_compiled`, `thermal` that of
`alpha * (3 * lmbda + 2 * mu) * T * div(v) * dx`. -/
structure Mechanical where
  stiff : ℕ → ℕ → ℝ
  thermal : ℕ → ℕ → ℝ

variable {G : Type} (Y : System G) (Z : Setting G) (H : Thermal) (M : Mechanical)

/-- `demo_thermo_mech_xmas2D.py:142-150`, `210-233`: `F_compiled` and `J_compiled` while `T0` has dofs `T`.  There are no strong
boundary conditions. -/
def heated (T : ℕ → ℝ) : LoadCase where
  bulk := fun w d => ∑ c ∈ range Z.numDofs, M.stiff d c * w c - ∑ c ∈ range H.numDofs, M.thermal d c * T c
  stiff := fun _ d c => M.stiff d c
  bc := fun _ => none

/-- What a time step has computed: the temperature before, the new one, and the displacement. -/
structure StepReport where
  before : ℕ → ℝ
  temp : ℕ → ℝ
  mech : Report

/-- `demo_thermo_mech_xmas2D.py:277-294`: the loop over time steps; the steps after the temperature are those of
`Verif.ContactProblem.loadStep` (the same lines as `demo_nitsche_unbiased.py:500-510`, with callbacks `210-233`; `compute_coefficients` does
not copy `x` to `du`, whose values it is: `newton_solver.solve(du)`). -/
def timeSteps (rank0 : Bool) : ℕ → (ℕ → ℝ) → Run G → List StepReport × Option DriverErr
  | 0, _, _ => ([], none)
  | n + 1, T0, r =>
    let T := H.step T0
    match loadStep Y Z rank0 (heated Z H M T) r with
    | .error e => ([], some e)
    | .ok (R, r) =>
      let out := timeSteps rank0 n T r
      (⟨T0, T, R⟩ :: out.1, out.2)

/-- `demo_thermo_mech_xmas2D.py:71`, `100-101`, `198-206`, `242-258`: the temperature is zero, `u` and `du` too; no friction and no
friction coefficient. -/
def simulate (rank0 : Bool) (mu lam h : ℕ → Mat) (gamma theta : ℝ) (opts : Newton.Opts) (n : ℕ) :
    List StepReport × Option DriverErr :=
  timeSteps Y Z H M rank0 n (fun _ => 0)
    (startRun Y Z ⟨.frictionless, some mu, some lam, none, some (Y.packGrad fun _ => 0), some (Y.du fun _ => 0), h, gamma, theta⟩ opts)

/-- `demo_thermo_mech_xmas2D.py:125-128`: the stress `sigma(w, T)` at a point. -/
def sigmaT (P : Params) (alpha : ℝ) (D : ℕ → ℕ → ℝ) (T : ℝ) (i j : ℕ) : ℝ :=
  (P.lmbda * (∑ k ∈ range P.dim, eps D k k) - alpha * (3 * P.lmbda + 2 * P.mu) * T) * (if i = j then 1 else 0)
    + 2.0 * P.mu * eps D i j

/-- `demo_thermo_mech_xmas2D.py:132-140`: the form `F`, with the quadrature points `cold` of `ds(4)` and `hot` of `ds(3)`, temperature `T`
at the quadrature points and zero Dirichlet data `g`; `P.gamma` is the argument `E * gamma` of `weak_dirichlet`. -/
def thermoF (P : Params) (Q : Quad) (h : ℕ → ℝ) (cold hot : List ℕ) (alpha : ℝ) (T : ℕ → ℝ) (u v : Field) : ℝ :=
  let F := integral Q Q.cells (fun k => innerM P.dim (sigmaT P alpha (u k).grad (T k)) (eps (v k).grad))
  let F := weakDirichlet P Q h cold (fun _ _ => 0) F u v
  weakDirichlet P Q h hot (fun _ _ => 0) F u v

end

end Verif.ThermoContact
