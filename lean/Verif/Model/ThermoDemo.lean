import Verif.Model.TieSystem

/-!
The demos with time steps for tied bodies: `cpp/demos/meshtieHeatEquation/main.cpp` with `heat_equation.py`,
`cpp/demos/meshtieHeatTransfer/main.cpp` with `thermo_elasticity.py`, and `python/demos/meshtie_demos/thermo_mech.py`.

Not modelled: reading the mesh, markers, output, near null space, ghost values (one process).  The volume forms are the
matrices which the form compiler and `fem::assemble_*` give; the linear solvers are functions of matrix and right-hand side.
-/

namespace Verif.TieData

open Verif.Packing Finset

noncomputable section

/-- The heat equation: `therm = (q - T0) * r * dx + kdt * inner(grad(q), grad(r)) * dx` (`heat_equation.py:41-42`,
`thermo_elasticity.py:46-47`, `thermo_mech.py:285-286`), with the matrices `mass` of `q * r * dx` and `stiff` of the second
term, the prescribed temperature `bc` of a dof, if any (`meshtieHeatEquation/main.cpp:94-100`,
`meshtieHeatTransfer/main.cpp:316-322`, `thermo_mech.py:289-291`), and `ksp_therm`. -/
structure HeatForms where
  numDofs : ℕ
  mass : ℕ → ℕ → ℝ
  stiff : ℕ → ℕ → ℝ
  bc : ℕ → Option ℝ
  solve : (ℕ × ℕ → ℝ) → (ℕ → ℝ) → ℕ → ℝ

/-- The displacement: `F = inner(sigma(u, T0), epsilon(v)) * dx`, `J = derivative(F, u, w)` (`thermo_elasticity.py:65-80`,
`thermo_mech.py:378-390`); `stiff` is the matrix of `J`, `thermal` that of `alpha * (3 * lmbda + 2 * mu) * T * div(v)`.  `bc k`
are the prescribed values in time step `k` (`meshtieHeatTransfer/main.cpp:424-436`, `531`; `thermo_mech.py:391-396`, the same in all
steps), `solve` is the Krylov solver of the Newton solver, `its k` the number of its iterations in time step `k`. -/
structure ElasticForms where
  numDofs : ℕ
  stiff : ℕ → ℕ → ℝ
  thermal : ℕ → ℕ → ℝ
  bc : ℕ → ℕ → Option ℝ
  solve : (ℕ × ℕ → ℝ) → (ℕ → ℝ) → ℕ → ℝ
  its : ℕ → ℕ

/-- A demo: tied surfaces, spaces `Q` and `V` of temperature and displacement, the space of the material parameters and their
values, Nitsche parameters, forms, initial temperature.  `withT`: `T` is given when the data for heat conduction are generated
(`meshtieHeatTransfer/main.cpp:326`, `thermo_mech.py:308`; not in `meshtieHeatEquation/main.cpp:115-116`).  `addTie`: the vector of the tie is
added to the right-hand side (both C++ demos; not in `thermo_mech.py:328-334`).  `withU`: `u` and `T` are given when the data for
thermo-elasticity are generated (`meshtieHeatTransfer/main.cpp:83`; not in `thermo_mech.py:130-134`). -/
structure Demo where
  M : TieMesh
  Q : TieElement
  V : TieElement
  EQ : TieElement
  mat : Key → ℕ → ℝ
  gamma : ℝ
  gammaE : ℝ
  theta : ℝ
  H : HeatForms
  L : ElasticForms
  start : ℕ → ℝ
  withT : Bool
  addTie : Bool
  withU : Bool

/-- The state after a call; `none` if it raises or is undefined. -/
def Out.state {R : Type} : Out R → Option (State R)
  | .ok s => some s
  | _ => none

/-- A matrix with boundary conditions: `A` as it is, plus the form `K` without the rows and columns of prescribed dofs
(`assemble_matrix(…, bcs)`), then the diagonal entries of these set to one (`set_diagonal`, `INSERT_VALUES`):
`meshtieHeatEquation/main.cpp:169-186`, `meshtieHeatTransfer/main.cpp:165-186`, `507-524`, `thermo_mech.py:186-191`, `322-325`. -/
def bcMatrix (bc : ℕ → Option ℝ) (A : Arr (ℕ × ℕ)) (K : ℕ → ℕ → ℝ) : ℕ × ℕ → ℝ :=
  let A := fun dc : ℕ × ℕ => if bc dc.1 = none ∧ bc dc.2 = none then A dc + K dc.1 dc.2 else A dc
  fun dc => if dc.1 = dc.2 ∧ bc dc.1 ≠ none then 1 else A dc

/-- A vector with boundary conditions: `apply_lifting(b, [K], [bcs], x0=[x], alpha)` subtracts `alpha` times the columns of
prescribed dofs times `g - x`, then `set_bc(b, bcs, x, alpha)` sets the entries of prescribed dofs to `alpha * (g - x)`. -/
def bcVector (n : ℕ) (bc : ℕ → Option ℝ) (K : ℕ → ℕ → ℝ) (x : ℕ → ℝ) (alpha : ℝ) (b : ℕ → ℝ) : ℕ → ℝ :=
  let b := fun d => b d - alpha * ∑ c ∈ range n, (bc c).elim 0 (fun g => K d c * (g - x c))
  fun d => (bc d).elim (b d) (fun g => alpha * (g - x d))

variable (D : Demo)

/-- `heat_equation.py:42`: the matrix of `a_therm`. -/
def HeatForms.form (H : HeatForms) (d c : ℕ) : ℝ := H.mass d c + H.stiff d c

/-- `meshtieHeatEquation/main.cpp:159-192`, `meshtieHeatTransfer/main.cpp:497-529`, `thermo_mech.py:321-342`, `448-451`: one time
step for the temperature.  Without `x0`, lifting and `set_bc` use 0 for `x`. -/
def Demo.heatStep (T : ℕ → ℝ) (s : State ℝ) : Option (ℕ → ℝ) := do
  let b ← if D.addTie then (D.M.assembleVector D.Q .poisson s 0).toOption else some 0
  let b := fun d => b d + ∑ c ∈ range D.H.numDofs, D.H.mass d c * T c
  let b := bcVector D.H.numDofs D.H.bc D.H.form (fun _ => 0) 1.0 b
  let A ← (D.M.assembleMatrix D.Q .poisson s 0).toOption
  return D.H.solve (bcMatrix D.H.bc A D.H.form) b

/-- What is passed to `update_kernel_data` (`meshtieHeatTransfer/main.cpp:122`, `thermo_mech.py:156-159`). -/
def Demo.solution (u T : ℕ → ℝ) : Coefs ℝ
  | .u => some (D.M.func D.V u)
  | .T => some (D.M.func D.Q T)
  | _ => none

/-- `meshtieHeatTransfer/main.cpp:113-155` `F`, `thermo_mech.py:144-172` `f`, in time step `k`; the vector `x` of the Newton solver
is that of `u` (`main.cpp:444-445`, `533`, `thermo_mech.py:452`). -/
def Demo.residual (k : ℕ) (T u : ℕ → ℝ) (s : State ℝ) : Option ((ℕ → ℝ) × State ℝ) := do
  let s ← (updateKernelData D.M.static (D.solution u T) .thermo s).state
  let b ← (D.M.assembleVector D.V .thermo s 0).toOption
  let b := fun d => b d + (∑ c ∈ range D.L.numDofs, D.L.stiff d c * u c - ∑ c ∈ range D.H.numDofs, D.L.thermal d c * T c)
  return (bcVector D.L.numDofs (D.L.bc k) D.L.stiff u (-1.0) b, s)

/-- `meshtieHeatTransfer/main.cpp:157-191` `J`, `thermo_mech.py:177-192` `j`. -/
def Demo.jacobian (k : ℕ) (s : State ℝ) : Option (ℕ × ℕ → ℝ) := do
  let A ← (D.M.assembleMatrix D.V .thermo s 0).toOption
  return bcMatrix (D.L.bc k) A D.L.stiff

/-- `n` iterations of DOLFINx's `NewtonSolver::solve` (by contract: matrix at `u`, solve for the step, subtract it, residual at
the new `u`), starting with residual `b`. -/
def Demo.newton (k : ℕ) (T : ℕ → ℝ) : ℕ → (ℕ → ℝ) → (ℕ → ℝ) × State ℝ → Option ((ℕ → ℝ) × State ℝ)
  | 0, u, bs => some (u, bs.2)
  | n + 1, u, bs => do
    let A ← D.jacobian k bs.2
    let dx := D.L.solve A bs.1
    let u := fun d => u d - 1.0 * dx d
    let bs ← D.residual k T u bs.2
    Demo.newton k T n u bs

/-- Temperature, displacement and the `MeshTie` object. -/
structure DemoRun where
  T : ℕ → ℝ
  u : ℕ → ℝ
  s : State ℝ

/-- `meshtieHeatTransfer/main.cpp:495-534`, `thermo_mech.py:448-454`: time step `k`. -/
def Demo.timeStep (k : ℕ) (r : DemoRun) : Option DemoRun := do
  let T ← D.heatStep r.T r.s
  let bs ← D.residual k T r.u r.s
  let us ← D.newton k T (D.L.its k) r.u bs
  return ⟨T, us.1, us.2⟩

/-- The coefficients given to `generate_kernel_data` for heat conduction. -/
def Demo.heatCoefs : Coefs ℝ
  | .kdt => some (D.M.func D.EQ (D.mat .kdt))
  | .T => if D.withT then some (D.M.func D.Q D.start) else none
  | _ => none

/-- The coefficients given to `generate_kernel_data` for thermo-elasticity; `u` is zero. -/
def Demo.thermoCoefs : Coefs ℝ
  | .u => if D.withU then some (D.M.func D.V fun _ => 0) else none
  | .T => if D.withU then some (D.M.func D.Q D.start) else none
  | .kdt => none
  | k => some (D.M.func D.EQ (D.mat k))

/-- `meshtieHeatEquation/main.cpp:112-116`: the `MeshTie` object of the demo with the heat equation only. -/
def Demo.heatStart : Option (State ℝ) :=
  (generateKernelData D.M.static .poisson (D.M.space D.Q) D.heatCoefs D.gamma D.theta State.init).state

/-- `meshtieHeatTransfer/main.cpp:306`, `325-326`, `410`, `440-442` with `81-84`, `thermo_mech.py:301-311`, `402-415` with
`127-137`: before the first time step. -/
def Demo.thermoStart : Option DemoRun := do
  let s ← D.heatStart
  let s ← (generateKernelData D.M.static .thermo (D.M.space D.V) D.thermoCoefs D.gammaE D.theta s).state
  return ⟨D.start, fun _ => 0, s⟩

/-- `meshtieHeatEquation/main.cpp:154-194`: temperature after `n` time steps. -/
def Demo.heatSteps : ℕ → Option (ℕ → ℝ)
  | 0 => some D.start
  | n + 1 => do
    let T ← Demo.heatSteps n
    let s ← D.heatStart
    D.heatStep T s

/-- `meshtieHeatTransfer/main.cpp:491-535`, `thermo_mech.py:447-454`: after `n` time steps. -/
def Demo.timeSteps : ℕ → Option DemoRun
  | 0 => D.thermoStart
  | n + 1 => do
    let r ← Demo.timeSteps n
    D.timeStep n r

end

end Verif.TieData
