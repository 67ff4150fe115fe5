import Verif.Model.Newton

/-!
`python/dolfinx_contact/newton_solver.py` once more, with what `Model/Newton.lean` leaves out: callbacks that were
not set or that raise, the setters, the preconditioner matrix and the frames written with `write_solution`.
Not modelled: PETSc options (`Model/Krylov.lean`), timers, printing.
-/

namespace Verif.NewtonCallbacks

open Verif.Newton (Opts Crit Arg)

/-- Python exceptions; `other n` are those the solver never handles.  `fuel` marks that the model's loop counter ran
out. -/
inductive Exn where
  | attributeError | runtimeError | assertionError | other (n : ℕ) | fuel
  deriving DecidableEq

/-- The vectors and matrices the callbacks read and write: `x`, `_coeffs`, `_b`, `_A`, `_P`. `P = none` means that
the attribute `_P` does not exist. -/
structure Mem (V B M C : Type) where
  x : V
  coeffs : C
  b : B
  A : M
  P : Option M

/-- A function given by the user: it changes the arrays it gets and may raise. -/
abbrev Callback (V B M C : Type) := Mem V B M C → Option Exn × Mem V B M C

/-- PETSc by contract: `linSolve A P b dx` (result, iterations, reason) after `setOperators(A, P)`, or
`setOperators(A, A)` if `P = none` (`newton_solver.py:337-340`); norms; `newton_solver.py:242-246` `_pre_computation` and
`_post_solve` (ghost updates). -/
structure Lib (V B M : Type) where
  linSolve : M → Option M → B → V → V × ℕ × ℤ
  normB : B → ℝ
  normV : V → ℝ
  pre : V → V
  post : V → V

/-- `newton_solver.py:26-48` `__slots__`: the attributes of the solver; `none` means that the attribute does not exist.
`frames` is the content of `results/newton.bp`. -/
structure Obj (V B M C : Type) where
  opts : Opts
  iteration : ℕ
  krylov : ℕ
  initialResidual : ℝ
  lastResidual : ℝ
  relax : Option ℝ
  dx : Option V
  coefficients : Option (Callback V B M C)
  residual : Option (Callback V B M C)
  jacobian : Option (Callback V B M C)
  preconditioner : Option (Callback V B M C)
  mem : Mem V B M C
  frames : List V

variable {V B M C : Type} {α β : Type}

/-- `newton_solver.py:65-82` `__init__`: no callbacks, no `_P`, no `relaxation_parameter`. -/
def Obj.init (x : V) (c : C) (b : B) (A : M) : Obj V B M C :=
  ⟨Opts.default, 0, 0, 0, 0, none, none, none, none, none, none, ⟨x, c, b, A, none⟩, []⟩

/-- Calls of the setters. -/
inductive Setter (V B M C : Type) where
  | coefficients (f : Callback V B M C)
  | residual (f : Callback V B M C)
  | jacobian (f : Callback V B M C)
  | preconditioner (f : Callback V B M C) (P : M)
  | matrix (A : M)

/-- `newton_solver.py:155-208`: `set_coefficients`, `set_residual`, `set_jacobian`, `set_preconditioner`,
`set_petsc_matrix`. -/
def Obj.set (o : Obj V B M C) : Setter V B M C → Obj V B M C
  | .coefficients f => { o with coefficients := some f }
  | .residual f => { o with residual := some f }
  | .jacobian f => { o with jacobian := some f }
  | .preconditioner f P => { o with preconditioner := some f, mem := { o.mem with P := some P } }
  | .matrix A => { o with mem := { o.mem with A := A } }

/-- Python statements: they change the object and return or raise. -/
def Act (V B M C α : Type) := Obj V B M C → Obj V B M C × Except Exn α

instance : Monad (Act V B M C) where
  pure a := fun o => (o, .ok a)
  bind a f := fun o => match a o with
    | (o, .ok r) => f r o
    | (o, .error e) => (o, .error e)

/-- `raise`. -/
def raise (e : Exn) : Act V B M C α := fun o => (o, .error e)

/-- `try: ... except AttributeError: ...`. -/
def exceptAttribute (a h : Act V B M C α) : Act V B M C α := fun o => match a o with
  | (o, .error .attributeError) => h o
  | r => r

/-- Call of a callback: reading an attribute that does not exist raises `AttributeError`. -/
def call (f : Option (Callback V B M C)) : Act V B M C Unit := fun o => match f with
  | none => (o, .error .attributeError)
  | some f => match f o.mem with
    | (none, m) => ({ o with mem := m }, .ok ())
    | (some e, m) => ({ o with mem := m }, .error e)

def callCoefficients : Act V B M C Unit := fun o => call o.coefficients o
def callResidual : Act V B M C Unit := fun o => call o.residual o
def callJacobian : Act V B M C Unit := fun o => call o.jacobian o
def callPreconditioner : Act V B M C Unit := fun o => call o.preconditioner o

/-- Assignments to attributes and arrays. -/
def modify (f : Obj V B M C → Obj V B M C) : Act V B M C Unit := fun o => (f o, .ok ())

/-- Reading attributes and arrays. -/
def read (f : Obj V B M C → α) : Act V B M C α := fun o => (o, .ok (f o))

noncomputable section

open Classical in
/-- `newton_solver.py:248-274` `_check_convergence` for a vector of norm `r`. -/
def checkConvergence (rank0 : Bool) (r : ℝ) : Act V B M C Bool := fun o =>
  let relOk : Bool := if o.initialResidual = 0 then false else decide (r / o.initialResidual < o.opts.rtol)
  if rank0 = true ∧ o.relax = none then (o, .error .attributeError)
  else ({ o with lastResidual := r }, .ok (relOk && decide (r < o.opts.atol)))

variable [AddCommGroup V] [Module ℝ V]

/-- `newton_solver.py:367-382` and `:394-406`: update of `x`, coefficients, iteration count (first time only, `bump = 1`),
`_post_solve`, residual.  None of it is in a `try`. -/
def evaluate (L : Lib V B M) (bump : ℕ) (x : V) : Act V B M C Unit := do
  modify (fun o => { o with mem := { o.mem with x := x } })
  callCoefficients
  modify (fun o => { o with iteration := o.iteration + bump, mem := { o.mem with x := L.post o.mem.x } })
  callResidual

open Classical in
/-- `newton_solver.py:386-407`: adaptive relaxation; `relax` is `relaxation_parameter`. -/
def lineSearch (L : Lib V B M) (xCopy dx : V) (resOld : ℝ) : ℕ → ℝ → Act V B M C Unit
  | 0, _ => raise .fuel
  | fuel + 1, relax => do
    let resNew ← read (fun o => L.normB o.mem.b)
    if resOld < resNew then
      let relax := 0.5 * relax
      if relax < 1e-2 then modify (fun o => { o with relax := some (2 * relax) })
      else
        modify (fun o => { o with relax := some relax })
        evaluate L 0 (Newton.updateSolution relax dx xCopy)
        lineSearch L xCopy dx resOld fuel relax
    else modify (fun o => { o with relax := some relax })

/-- `newton_solver.py:422-433`: convergence test at the end of an iteration. -/
def testConvergence (L : Lib V B M) (rank0 : Bool) : Act V B M C Bool := fun o =>
  match o.opts.crit with
  | .residual => checkConvergence rank0 (L.normB o.mem.b) o
  | .incremental =>
    if o.iteration = 1 then ({ o with lastResidual := 1 }, .ok false)
    else checkConvergence rank0 (L.normV (o.dx.getD 0)) o

/-- `newton_solver.py:409-415`: `out.x.array[:] = x.x.array[:] + u.x.array[:]` (or `x` itself) and `vtx.write`. -/
def writeFrame (write : Bool) (offset : Option V) : Act V B M C Unit :=
  if write then modify (fun o => { o with frames := o.frames ++ [o.mem.x + offset.getD 0] }) else pure ()

/-- `newton_solver.py:349-433`: body of the `while` loop; `resOld` is `res_old`. -/
def body (L : Lib V B M) (rank0 write : Bool) (offset : Option V) (resOld : ℝ) : Act V B M C (Bool × ℝ) := do
  let xCopy ← read (fun o => o.mem.x)
  modify (fun o => { o with relax := some 1.0 })
  exceptAttribute callJacobian (raise .runtimeError)
  exceptAttribute callPreconditioner (pure ())
  let r ← read (fun o => L.linSolve o.mem.A o.mem.P o.mem.b (o.dx.getD 0))
  modify (fun o => { o with dx := some r.1, krylov := o.krylov + r.2.1 })
  if ¬ r.2.2 > 0 then raise .assertionError
  else do
    let x ← read (fun o => o.mem.x)
    evaluate L 1 (Newton.updateSolution 1.0 r.1 x)
    lineSearch L xCopy r.1 resOld 8 1.0
    let resNew ← read (fun o => L.normB o.mem.b)
    writeFrame write offset
    modify (fun o => if o.iteration = 1 then { o with initialResidual := L.normV r.1 } else o)
    let conv ← testConvergence L rank0
    pure (conv, resNew)

/-- `newton_solver.py:348-433`: the `while` loop. -/
def newtonLoop (L : Lib V B M) (rank0 write : Bool) (offset : Option V) : ℕ → Bool → ℝ → Act V B M C Bool
  | 0, _, _ => raise .fuel
  | fuel + 1, conv, resOld => fun o =>
    if conv = false ∧ o.iteration < o.opts.maxIt then
      (body L rank0 write offset resOld >>= fun r => newtonLoop L rank0 write offset fuel r.1 r.2) o
    else (o, .ok conv)

/-- `newton_solver.py:322-335`: convergence test of the initial guess. -/
def firstTest (L : Lib V B M) (rank0 : Bool) : Act V B M C Bool := fun o =>
  match o.opts.crit with
  | .residual => checkConvergence rank0 (L.normB o.mem.b) o
  | .incremental => (o, .ok false)

/-- `newton_solver.py:282-455` `_solve`; `write` is already `False` for a `PETSc.Vec` (lines 289-293).  The vector
`_dx` created in line 342 is the zero vector `o.dx.getD 0`. -/
def solveInner (L : Lib V B M) (rank0 write : Bool) (offset : Option V) : Act V B M C (ℕ × Bool) := do
  modify (fun o => if write then { o with frames := [o.mem.x + offset.getD 0] } else o)
  modify (fun o => { o with iteration := 0, krylov := 0, lastResidual := -1 })
  exceptAttribute callCoefficients (raise .runtimeError)
  modify (fun o => { o with mem := { o.mem with x := L.pre o.mem.x } })
  exceptAttribute callResidual (raise .runtimeError)
  let resOld ← read (fun o => L.normB o.mem.b)
  let conv ← firstTest L rank0
  let maxIt ← read (fun o => o.opts.maxIt)
  let conv ← newtonLoop L rank0 write offset (maxIt + 1) conv resOld
  let raises ← read (fun o => o.opts.errorOnNonconvergence)
  if conv = false ∧ raises = true then raise .runtimeError
  else
    let n ← read (fun o => o.iteration)
    pure (n, conv)

/-- `newton_solver.py:126-143` `solve`: on an `AttributeError`, from wherever it comes, `_solve(u)` is called again, and then
`u.ghostUpdate`.  `u.x.scatter_forward()` raises one for a `PETSc.Vec`, `u.ghostUpdate` for a `Function`. -/
def solve (L : Lib V B M) (rank0 : Bool) (arg : Arg) (write : Bool) (offset : Option V) : Act V B M C (ℕ × Bool) :=
  exceptAttribute
    (do
      let r ← solveInner L rank0 (write && decide (arg = .function)) offset
      match arg with
      | .function => pure r
      | .petscVec => raise .attributeError)
    (do
      let r ← solveInner L rank0 false none
      match arg with
      | .function => raise .attributeError
      | .petscVec => pure r)

end

end Verif.NewtonCallbacks
