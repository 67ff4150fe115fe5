import Verif.Model.ThermoDemo
import Verif.Model.UflDriver

/-!
The static demos for tied bodies: `python/demos/demo_nitsche_meshties.py`, `python/demos/meshtie_demos/demo_poisson.py`,
`python/demos/meshtie_convergence.py` and `meshtie_demos/poisson_convergence.py` (`test_meshtie`), `cpp/demos/meshtie/main.cpp`, which
solve one linear system, and `python/demos/meshtie_demos/blocks_nitsche_meshtie.py`, `cpp/demos/meshtieNewton/main.cpp`, which leave
it to DOLFINx's Newton solver.

Not modelled: making and reading meshes, output, near null space, ghost values (one process), PETSc options.  The volume forms are
the matrix and vector which the form compiler and `assemble_*` give (with the terms of Nitsche's method for the boundary, if any);
the linear solver is a function of matrix and right-hand side.
-/

namespace Verif.TieData

open Verif.Packing Finset

noncomputable section

/-- A demo: tied surfaces, space of the solution, space and values of the material parameters, the problem, `gamma` and `theta` as
passed to `generate_kernel_data`, matrix of `J` and vector of `F` without boundary conditions, the prescribed value `bc` of a dof,
if any, and the Krylov solver.  `lift` is `alpha` of `apply_lifting` (`-1.0`: `demo_nitsche_meshties.py:199`, `demo_poisson.py:246`;
`1.0`: `meshtie/main.cpp:200-201`; the convergence tests prescribe no values).  `addTie`: the vector of the tie is added to the
right-hand side (`meshtie/main.cpp:197-198`).  `withU`: `u` is given when the data are generated (`meshtieNewton/main.cpp:74-76`; not
in `blocks_nitsche_meshtie.py:103-109`). -/
structure TieDemo where
  M : TieMesh
  V : TieElement
  EQ : TieElement
  mat : Key → ℕ → ℝ
  p : Problem
  gamma : ℝ
  theta : ℝ
  numDofs : ℕ
  stiff : ℕ → ℕ → ℝ
  load : ℕ → ℝ
  bc : ℕ → Option ℝ
  solve : (ℕ × ℕ → ℝ) → (ℕ → ℝ) → ℕ → ℝ
  lift : ℝ
  addTie : Bool
  withU : Bool

variable (D : TieDemo)

/-- `apply_lifting(b, [J], bcs=[bcs], alpha)` subtracts `alpha` times the columns of prescribed dofs times their values, then
`set_bc(b, bcs)` sets the entries of prescribed dofs (`demo_nitsche_meshties.py:198-205`, `demo_poisson.py:245-249`,
`meshtie/main.cpp:200-203`). -/
def TieDemo.rhs (b : ℕ → ℝ) : ℕ → ℝ :=
  let b := fun d => b d - D.lift * ∑ c ∈ range D.numDofs, (D.bc c).elim 0 (fun g => D.stiff d c * g)
  fun d => (D.bc d).elim (b d) (fun g => g)

/-- The coefficients passed to `generate_kernel_data` (`demo_nitsche_meshties.py:177-183`, `demo_poisson.py:231-233`,
`meshtie_convergence.py:401-407`, `poisson_convergence.py:370-372`, `meshtie/main.cpp:184-186`). -/
def TieDemo.coefs : Coefs ℝ
  | .mu => if D.p = .elasticity then some (D.M.func D.EQ (D.mat .mu)) else none
  | .lam => if D.p = .elasticity then some (D.M.func D.EQ (D.mat .lam)) else none
  | .kdt => if D.p = .poisson then some (D.M.func D.EQ (D.mat .kdt)) else none
  | _ => none

/-- `demo_nitsche_meshties.py:174-250`, `demo_poisson.py:223-285`, `meshtie_convergence.py:401-450`, `poisson_convergence.py:370-420`,
`meshtie/main.cpp:184-256`. -/
def TieDemo.run : Option (ℕ → ℝ) := do
  let s ← (generateKernelData D.M.static D.p (D.M.space D.V) D.coefs D.gamma D.theta State.init).state
  let b ← if D.addTie then (D.M.assembleVector D.V D.p s 0).toOption else some 0
  let b := fun d => b d + D.load d
  let b := D.rhs b
  let A ← (D.M.assembleMatrix D.V D.p s 0).toOption
  return D.solve (bcMatrix D.bc A D.stiff) b

/-! ### `MeshTieProblem` -/

/-- The coefficients passed to `generate_kernel_data` by `MeshTieProblem` (`blocks_nitsche_meshtie.py:103-109`,
`meshtieNewton/main.cpp:74-76`); `u` is zero. -/
def TieDemo.problemCoefs : Coefs ℝ
  | .mu => some (D.M.func D.EQ (D.mat .mu))
  | .lam => some (D.M.func D.EQ (D.mat .lam))
  | .u => if D.withU then some (D.M.func D.V fun _ => 0) else none
  | _ => none

/-- The constructor of `MeshTieProblem` (`blocks_nitsche_meshtie.py:85-115`, `meshtieNewton/main.cpp:59-84`). -/
def TieDemo.problemStart : Option (State ℝ) :=
  (generateKernelData D.M.static .elasticity (D.M.space D.V) D.problemCoefs D.gamma D.theta State.init).state

/-- `{"u": self._u}`; the vector of `u` is `x` (`blocks_nitsche_meshtie.py:340`, `meshtieNewton/main.cpp:392`). -/
def TieDemo.solution (u : ℕ → ℝ) : Coefs ℝ
  | .u => some (D.M.func D.V u)
  | _ => none

/-- `MeshTieProblem.f` (`blocks_nitsche_meshtie.py:117-147`), `F` (`meshtieNewton/main.cpp:105-146`). -/
def TieDemo.f (u : ℕ → ℝ) (s : State ℝ) : Option ((ℕ → ℝ) × State ℝ) := do
  let s ← (updateKernelData D.M.static (D.solution u) .elasticity s).state
  let b ← (D.M.assembleVector D.V .elasticity s 0).toOption
  let b := fun d => b d + ∑ c ∈ range D.numDofs, D.stiff d c * u c
  return (bcVector D.numDofs D.bc D.stiff u (-1.0) b, s)

/-- `MeshTieProblem.j` (`blocks_nitsche_meshtie.py:149-162`), `J` (`meshtieNewton/main.cpp:148-186`). -/
def TieDemo.j (s : State ℝ) : Option (ℕ × ℕ → ℝ) := do
  let A ← (D.M.assembleMatrix D.V .elasticity s 0).toOption
  return bcMatrix D.bc A D.stiff

open UflDriver (Options norm2 converged)

/-- Attributes of the Newton solver of the demos: `rtol`, `atol` (`blocks_nitsche_meshtie.py:306-307`,
`meshtieNewton/main.cpp:358-360`), the others as DOLFINx sets them. -/
def demoOptions : Options := ⟨1e-7, 1e-7, "residual", 50, true, 1.0⟩

open Classical in
/-- The loop of `NewtonSolver::solve` (library) as in `Model/UflDriver.lean`, for callbacks that change the state of the `MeshTie`
object. -/
def TieDemo.loop (o : Options) : ℕ → ℕ → ℝ → (ℕ → ℝ) → (ℕ → ℝ) × State ℝ → Except String (ℕ × Bool × (ℕ → ℝ))
  | 0, it, _, u, _ => .ok (it, false, u)
  | fuel + 1, it, r0, u, bs =>
    match D.j bs.2 with
    | none => .error "RuntimeError"
    | some A =>
      let dx := D.solve A bs.1
      let u' := fun d => u d - o.relaxation * dx d
      match D.f u' bs.2 with
      | none => .error "RuntimeError"
      | some bs' =>
        let r0' := if it + 1 = 1 then norm2 D.numDofs dx else r0
        let done : Prop :=
          if o.criterion = "residual" then converged o r0' (norm2 D.numDofs bs'.1)
          else it + 1 ≠ 1 ∧ converged o r0' (norm2 D.numDofs dx)
        if done then .ok (it + 1, true, u') else TieDemo.loop o fuel (it + 1) r0' u' bs'

open Classical in
/-- `NewtonSolver::solve` (library) from `u`, after the constructor of `MeshTieProblem` (`blocks_nitsche_meshtie.py:284-340`,
`meshtieNewton/main.cpp:347-392`). -/
def TieDemo.newton (o : Options) (u : ℕ → ℝ) : Except String (ℕ × Bool × (ℕ → ℝ)) :=
  if o.criterion ≠ "residual" ∧ o.criterion ≠ "incremental" then .error "RuntimeError"
  else match D.problemStart with
    | none => .error "RuntimeError"
    | some s => match D.f u s with
      | none => .error "RuntimeError"
      | some bs =>
        if o.criterion = "residual" ∧ converged o 0 (norm2 D.numDofs bs.1) then .ok (0, true, u)
        else match D.loop o o.maxIt 0 0 u bs with
          | .error e => .error e
          | .ok (n, conv, u') => if conv = false ∧ o.errorOnNonconvergence then .error "RuntimeError" else .ok (n, conv, u')

end

end Verif.TieData
