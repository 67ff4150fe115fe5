import Verif.Model.Driver

/-!
Computations in phases: `python/demos/hertz_contact/demo_friction_cylinders.py:247-467` and
`demo_friction_cylinders_force_driven.py:226-433` press two cylinders together without friction, call
`generate_contact_data` again for Coulomb friction, with other Nitsche parameters, boundary conditions and
Krylov options, and move the upper cylinder sideways.

Not modelled: output, computed forces, timers, near null space, ghost values (one process).
-/

namespace Verif.ContactProblem

open Verif.Packing Verif.Assembly

noncomputable section

variable {G : Type} (Y : System G) (Z : Setting G)

/-- Arguments of `generate_contact_data` at the beginning of a phase
(`demo_friction_cylinders.py:250-256`, `405-411`), without `u` and `du`, which are the functions of the
program; `fric = none`: key missing. `guess` is what the program does to `du` afterwards (`260-265`: set on the
upper body; nothing in the second phase). -/
structure Phase where
  law : Law
  mu : ℕ → Mat
  lam : ℕ → Mat
  fric : Option (ℕ → Mat)
  h : ℕ → Mat
  gamma : ℝ
  theta : ℝ
  guess : (ℕ → ℝ) → ℕ → ℝ

/-- A load step (`demo_friction_cylinders.py:338-380`, `419-469`): `preset` are the values of the boundary
conditions when `set_bc(du, bcs)` is called, `load` the forms and boundary conditions during the solve,
`linSolve` the Krylov solver with the options of the phase (`413`: `update_krylov_solver`), and `factor` what
`du` is multiplied by after the step (`379`: `0.1 * h`, `468`: `0.1`). -/
structure PhaseStep where
  preset : ℕ → Option ℝ
  load : LoadCase
  linSolve : (ℕ × ℕ → ℝ) → (ℕ → ℝ) → (ℕ → ℝ) → (ℕ → ℝ) × ℕ × ℤ
  factor : ℝ

/-- `set_bc(du.x.petsc_vec, bcs)` (`demo_friction_cylinders.py:344`, `423`). -/
def presetBc (bc : ℕ → Option ℝ) (x : ℕ → ℝ) : ℕ → ℝ := fun d => (bc d).getD (x d)

/-- `demo_friction_cylinders.py:250-256`, `405-411`: `generate_contact_data` with the current `u` and `du`.
Simplification: as for `startRun`, the state after an exception is used as if there was none (proved not to
happen). -/
def beginPhase (P : Phase) (r : Run G) : Run G :=
  let a : GenArgs G := ⟨P.law, some P.mu, some P.lam, P.fric, some (Y.packGrad r.u), some (Y.du r.solver.x), P.h,
    P.gamma, P.theta⟩
  ⟨{ r.solver with coeffs := after (generate Y.static a r.solver.coeffs), x := P.guess r.solver.x }, r.u⟩

/-- `demo_friction_cylinders.py:344-348`, `375-380`: body of the loops over load steps. -/
def phaseStep (rank0 : Bool) (S : PhaseStep) (r : Run G) : Except DriverErr (Report × Run G) :=
  match Newton.solve (driverProblem Y { Z with linSolve := S.linSolve } S.load r.u) rank0 .function
      { r.solver with x := presetBc S.preset r.solver.x } with
  | (_, .error e) => .error (.newton e)
  | (s, .ok (n, conv)) =>
    let u := fun d => r.u d + s.x d
    match updateDetection Y.static (fun _ => Z.place u) (Y.packGrad u) s.coeffs with
    | .error e => .error (.contact e.1)
    | .ok c =>
      let du := fun d => S.factor * s.x d
      match updateContactData Y.static (Y.du du) c with
      | .error e => .error (.contact e.1)
      | .ok c => .ok (⟨n, conv, r.u, s.x⟩, ⟨{ s with coeffs := c, x := du }, u⟩)

/-- What a program does next. -/
inductive Action where
  | begin (P : Phase)
  | step (S : PhaseStep)

/-- The program: reports of the load steps, and the exception, if any, which ended it. -/
def actions (rank0 : Bool) : List Action → Run G → List Report × Option DriverErr
  | [], _ => ([], none)
  | .begin P :: as, r => actions rank0 as (beginPhase Y P r)
  | .step S :: as, r =>
    match phaseStep Y Z rank0 S r with
    | .error e => ([], some e)
    | .ok (R, r) =>
      let out := actions rank0 as r
      (R :: out.1, out.2)

/-- `demo_friction_cylinders.py:194-196`, `247-249`, `311-325`: before `generate_contact_data` is called for
the first time; the solver is created later in the program, with no effect before. -/
def newRun (opts : Newton.Opts) : Run G where
  solver := { Newton.St.init (fun _ => 0) (init Y.static (Z.place fun _ => 0)) (fun _ => 0) with
    opts := opts, relax := some 1.0 }
  u := fun _ => 0

/-- Dofs of the boundary conditions of `demo_friction_cylinders.py:160-172`, `391-402`, as predicates, and
the component a dof belongs to. -/
structure CylinderDofs where
  symmetry : ℕ → Bool
  bottom : ℕ → Bool
  top : ℕ → Bool
  constraint : ℕ → Bool
  comp : ℕ → ℕ

/-- `demo_friction_cylinders.py:168-172`: boundary conditions of the first phase; a later condition of the
list replaces the values of an earlier one. Simplification: `apply_lifting` is taken to see each dof once. -/
def cylinderBc1 (D : CylinderDofs) (gTop : ℕ → ℝ) (d : ℕ) : Option ℝ :=
  if D.top d then some (gTop (D.comp d)) else if D.bottom d then some 0 else if D.symmetry d then some 0 else none

/-- `demo_friction_cylinders.py:398-402`: boundary conditions of the second phase. -/
def cylinderBc2 (D : CylinderDofs) (gTop : ℕ → ℝ) (d : ℕ) : Option ℝ :=
  if D.top d then some (gTop (D.comp d)) else if D.constraint d then some 0 else if D.bottom d then some 0 else none

/-- A vector with two components. -/
def pair (x y : ℝ) (a : ℕ) : ℝ := if a = 0 then x else y

/-- `demo_friction_cylinders.py:247-467`: `form` is the bulk (the traction `t` is zero), `lin1` and `lin2` the
Krylov solvers, `h` the mean cell diameter at the second surface; `P1`, `P2` the phases. In the second loop
`g_top` is set after `set_bc(du, bcs)`: in its first step the values `(0, 0)` are used there. -/
def cylinders (D : CylinderDofs) (bulk : (ℕ → ℝ) → ℕ → ℝ) (stiff : (ℕ → ℝ) → ℕ → ℕ → ℝ)
    (lin1 lin2 : (ℕ × ℕ → ℝ) → (ℕ → ℝ) → (ℕ → ℝ) → (ℕ → ℝ) × ℕ × ℤ) (h : ℝ) (P1 P2 : Phase) : List Action :=
  let steps1 : ℕ := 4
  let g1 := cylinderBc1 D (pair 0 (-0.2 / (steps1 : ℝ)))
  let steps2 : ℕ := 6 * 16
  let g2 := cylinderBc2 D (pair (6 * 0.05 / (steps2 : ℝ)) 0)
  [.begin P1] ++ (List.range steps1).map (fun _ => .step ⟨g1, ⟨bulk, stiff, g1⟩, lin1, 0.1 * h⟩)
    ++ [.begin P2] ++ (List.range steps2).map (fun i =>
      .step ⟨if i = 0 then cylinderBc2 D (pair 0 0) else g2, ⟨bulk, stiff, g2⟩, lin2, 0.1⟩)

end

end Verif.ContactProblem
