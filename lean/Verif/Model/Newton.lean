import Mathlib.Data.Real.Basic
import Mathlib.Algebra.Module.Defs
import Mathlib.Algebra.Module.Basic

/-!
`python/dolfinx_contact/newton_solver.py`: class `NewtonSolver` as a state machine over abstract
callbacks.  Not modelled: PETSc options, the preconditioner matrix (part of the linear solver
parameter), VTX output (`write_solution`), timers, printing.  `float` is `ℝ`; the quotient by a zero
initial residual is `inf` (`none` below).
-/

namespace Verif.Newton

/-- Python exceptions that can end a call; `fuel` is not an exception of the program: it marks that
the model's loop counter ran out (proved impossible). -/
inductive Err where
  | attributeError | runtimeError | assertionError | fuel
  deriving DecidableEq

/-- `newton_solver.py:25-27` `ConvergenceCriterion`. -/
inductive Crit where
  | residual | incremental
  deriving DecidableEq

/-- The user callbacks and library operations, arbitrary functions.
`coefficients x c` is `_compute_coefficients(x, coeffs)`, `residual x c` fills `b`,
`jacobian x c` fills `A`, `linSolve A b dx0` is the Krylov solve (result, iterations, reason),
`pre`/`post` are `_pre_computation`/`_post_solve` (ghost updates by default). -/
structure Problem (V B M C : Type) where
  coefficients : V → C → C
  residual : V → C → B
  jacobian : V → C → M
  linSolve : M → B → V → V × ℕ × ℤ
  normB : B → ℝ
  normV : V → ℝ
  pre : V → V
  post : V → V

/-- Attributes of the solver object. -/
structure Opts where
  maxIt : ℕ
  rtol : ℝ
  atol : ℝ
  crit : Crit
  errorOnNonconvergence : Bool

/-- Attributes of the solver object and the vectors it works on.  `relax = none` means that the
attribute `relaxation_parameter` does not exist yet.  `nRes`, `nLin` count residual evaluations and
linear solves (ghost variables of the model). -/
structure St (V B C : Type) where
  opts : Opts
  iteration : ℕ
  krylov : ℕ
  initialResidual : ℝ
  lastResidual : ℝ
  relax : Option ℝ
  dx : Option V
  x : V
  coeffs : C
  b : B
  nRes : ℕ
  nLin : ℕ

/-- `newton_solver.py:65-82` `__init__`: `relaxation_parameter` is not set. -/
def Opts.default : Opts := ⟨50, 1e-7, 1e-7, .residual, false⟩

/-- `newton_solver.py:65-82`: a fresh solver for vector `x` with matrices and vectors given. -/
def St.init {V B C : Type} (x : V) (c : C) (b : B) : St V B C :=
  ⟨Opts.default, 0, 0, 0, 0, none, none, x, c, b, 0, 0⟩

/-- Dictionary passed to `set_newton_options`; `crit` is the string after lookup: `some none` is an
unknown string. -/
structure OptDict where
  atol : Option ℝ := none
  rtol : Option ℝ := none
  crit : Option (Option Crit) := none
  maxIt : Option ℕ := none
  errorOn : Option Bool := none
  relax : Option ℝ := none

variable {V B M C : Type}

/-- `newton_solver.py:210-240` `set_newton_options`; returns the new state and the exception. -/
def setNewtonOptions (s : St V B C) (d : OptDict) : St V B C × Option Err :=
  let s := match d.atol with
    | some a => { s with opts := { s.opts with atol := a } }
    | none => s
  let s := match d.rtol with
    | some a => { s with opts := { s.opts with rtol := a } }
    | none => s
  match d.crit with
  | some none => (s, some .runtimeError)
  | crit =>
    let s := match crit with
      | some (some c) => { s with opts := { s.opts with crit := c } }
      | _ => s
    let s := match d.maxIt with
      | some n => { s with opts := { s.opts with maxIt := n } }
      | none => s
    let s := match d.errorOn with
      | some e => { s with opts := { s.opts with errorOnNonconvergence := e } }
      | none => s
    let s := match d.relax with
      | some r => { s with relax := some r }
      | none => { s with relax := some 1.0 }
    (s, none)

noncomputable section

open Classical in
/-- `newton_solver.py:248-274` `_check_convergence` for a vector with norm `r`: the residual norm
and the verdict.  On rank 0 the final `print` reads `relaxation_parameter` (line 273). -/
def checkConvergence (rank0 : Bool) (s : St V B C) (r : ℝ) : Except Err (ℝ × Bool) :=
  let relative : Option ℝ := if s.initialResidual = 0 then none else some (r / s.initialResidual)
  if rank0 = true ∧ s.relax = none then .error .attributeError
  else
    let relOk : Bool := match relative with
      | none => false
      | some q => decide (q < s.opts.rtol)
    .ok (r, relOk && decide (r < s.opts.atol))

variable [AddCommGroup V] [Module ℝ V]

/-- `newton_solver.py:276-280` `_update_solution`: `x.axpy(-relaxation_parameter, dx)`. -/
def updateSolution (relax : ℝ) (dx x : V) : V := x + (-relax) • dx

/-- `newton_solver.py:370-382` and `:397-406`: coefficients at the new `x`, `_post_solve`, residual. -/
def evaluate (P : Problem V B M C) (s : St V B C) (x : V) : St V B C :=
  let c := P.coefficients x s.coeffs
  let x := P.post x
  { s with x := x, coeffs := c, b := P.residual x c, nRes := s.nRes + 1 }

open Classical in
/-- `newton_solver.py:386-407`: the adaptive relaxation loop.  `relax` is the current
`relaxation_parameter`, `res_new` is the norm of the current `b`. -/
def lineSearch (P : Problem V B M C) (xCopy dx : V) (resOld : ℝ) :
    ℕ → ℝ → St V B C → Option (ℝ × St V B C)
  | 0, _, _ => none
  | fuel + 1, relax, s =>
    if resOld < P.normB s.b then
      let relax := 0.5 * relax
      if relax < 1e-2 then some (2 * relax, s)
      else lineSearch P xCopy dx resOld fuel relax (evaluate P s (updateSolution relax dx xCopy))
    else some (relax, s)

/-- `newton_solver.py:422-433`: convergence test at the end of an iteration. -/
def testConvergence (P : Problem V B M C) (rank0 : Bool) (s : St V B C) : Except Err (ℝ × Bool) :=
  match s.opts.crit with
  | .residual => checkConvergence rank0 s (P.normB s.b)
  | .incremental =>
    if s.iteration = 1 then .ok (1, false)
    else checkConvergence rank0 s (P.normV (s.dx.getD 0))

/-- `newton_solver.py:349-433`: body of the `while` loop. Returns the new state, the verdict and
the new `res_old`. -/
def body (P : Problem V B M C) (rank0 : Bool) (resOld : ℝ) (s : St V B C) :
    St V B C × Except Err (Bool × ℝ) :=
  let xCopy := s.x
  let A := P.jacobian s.x s.coeffs
  let (dx, its, reason) := P.linSolve A s.b (s.dx.getD 0)
  let s := { s with relax := some 1.0, dx := some dx, krylov := s.krylov + its, nLin := s.nLin + 1 }
  if ¬ reason > 0 then (s, .error .assertionError)
  else
    let s := { s with iteration := s.iteration + 1 }
    let s := evaluate P s (updateSolution 1.0 dx s.x)
    match lineSearch P xCopy dx resOld 8 1.0 s with
    | none => (s, .error .fuel)
    | some (relax, s) =>
      let s := { s with relax := some relax }
      let resNew := P.normB s.b
      let s := if s.iteration = 1 then { s with initialResidual := P.normV dx } else s
      match testConvergence P rank0 s with
      | .error e => (s, .error e)
      | .ok (r, conv) => ({ s with lastResidual := r }, .ok (conv, resNew))

/-- `newton_solver.py:348-433`: `while not newton_converged and self.iteration < self.max_it`. -/
def newtonLoop (P : Problem V B M C) (rank0 : Bool) :
    ℕ → Bool → ℝ → St V B C → St V B C × Except Err Bool
  | 0, _, _, s => (s, .error .fuel)
  | fuel + 1, conv, resOld, s =>
    if conv = false ∧ s.iteration < s.opts.maxIt then
      match body P rank0 resOld s with
      | (s, .error e) => (s, .error e)
      | (s, .ok (conv, resOld)) => newtonLoop P rank0 fuel conv resOld s
    else (s, .ok conv)

/-- `newton_solver.py:282-455` `_solve`. -/
def solveInner (P : Problem V B M C) (rank0 : Bool) (s : St V B C) :
    St V B C × Except Err (ℕ × Bool) :=
  let s := { s with iteration := 0, krylov := 0, lastResidual := -1 }
  let c := P.coefficients s.x s.coeffs
  let x := P.pre s.x
  let s := { s with coeffs := c, x := x, b := P.residual x c, nRes := s.nRes + 1 }
  let resOld := P.normB s.b
  let start : St V B C × Except Err Bool :=
    match s.opts.crit with
    | .residual =>
      match checkConvergence rank0 s (P.normB s.b) with
      | .error e => (s, .error e)
      | .ok (r, conv) => ({ s with lastResidual := r }, .ok conv)
    | .incremental => (s, .ok false)
  match start with
  | (s, .error e) => (s, .error e)
  | (s, .ok conv) =>
    match newtonLoop P rank0 (s.opts.maxIt + 1) conv resOld s with
    | (s, .error e) => (s, .error e)
    | (s, .ok conv) =>
      if conv = false ∧ s.opts.errorOnNonconvergence = true then (s, .error .runtimeError)
      else (s, .ok (s.iteration, conv))

/-- What is passed to `solve`: a `fem.Function` (has attribute `x`) or a `PETSc.Vec` (has not). -/
inductive Arg where
  | function | petscVec
  deriving DecidableEq

/-- `newton_solver.py:126-143` `solve`: `_solve` then `u.x.scatter_forward()` inside `try`; on an
`AttributeError` (raised by `_solve`, or by `u.x` for a `PETSc.Vec`) `_solve` is called again.  Line 142 `u.ghostUpdate`
would raise for a `Function`; there the second `_solve` already raises (`Lemmas/NewtonFrames.lean`, `inner_attr`). -/
def solve (P : Problem V B M C) (rank0 : Bool) (arg : Arg) (s : St V B C) :
    St V B C × Except Err (ℕ × Bool) :=
  match solveInner P rank0 s with
  | (s, .error .attributeError) => solveInner P rank0 s
  | (s, .error e) => (s, .error e)
  | (s, .ok r) =>
    match arg with
    | .function => (s, .ok r)
    | .petscVec => solveInner P rank0 s

end

end Verif.Newton
