import Verif.Model.Driver

/-!
The driver of `python/demos/demo_nitsche_unbiased.py:427-510` run by several processes (`Model/Driver.lean` is
the same program run by one).  Vectors and matrices of the program (`du`, `u`, `b`, `a_mat`) are given by their
global entries; a process works on the entries it owns or has as ghosts.

Library contracts: `scatter_forward` gives ghosts the value of the owner, `ghostUpdate(ADD, REVERSE)` adds the
values of ghosts to that of the owner, `Mat.assemble` adds the contributions of all processes, norms are
global.  `F_compiled`, `J_compiled` (DOLFINx forms), boundary conditions and the Krylov solver are global
(`LoadCase`, `Setting`).  All processes take the same branches, since these depend on norms only; an exception
of one process ends the run.
-/

namespace Verif.ContactProblem

open Verif.Packing Verif.Assembly

noncomputable section

/-- The processes: their number, the contact problem each of them builds, the number of its dofs (ghosts
included) and the global number of a (blocked) dof. -/
structure Processes (G : Type) where
  num : ℕ
  part : ℕ → System G
  numLocal : ℕ → ℕ
  node : ℕ → ℕ → ℕ

variable {G : Type} (D : Processes G) (Z : Setting G)

/-- Global number of a dof of a process (block size `gdim`). -/
def Processes.index (p d : ℕ) : ℕ := (D.part p).gdim * D.node p (d / (D.part p).gdim) + d % (D.part p).gdim

/-- `demo_nitsche_unbiased.py:429-432`: `du` of a process after `scatter_forward`. -/
def Processes.seen (p : ℕ) (x : ℕ → ℝ) : ℕ → ℝ := fun d => x (D.index p d)

/-- `demo_nitsche_unbiased.py:428-433` `compute_coefficients` in every process. -/
def parCoefficients (x : ℕ → ℝ) (s : ℕ → State G) : ℕ → State G :=
  fun p => driverCoefficients (D.part p) (D.seen p x) (s p)

/-- The vector after `contact_problem.assemble_vector(b, V)` in every process and
`b.ghostUpdate(ADD, REVERSE)` (`demo_nitsche_unbiased.py:440`, `448`). -/
def parVector (s : ℕ → State G) (I : ℕ) : ℝ :=
  ∑ p ∈ Finset.range D.num, ∑ d ∈ Finset.range (D.numLocal p) with D.index p d = I, contactVector (D.part p) (s p) d

/-- The matrix after `contact_problem.assemble_matrix(a_mat, V)` in every process and `a_mat.assemble()`
(`demo_nitsche_unbiased.py:456`, `459`). -/
def parMatrix (s : ℕ → State G) (IJ : ℕ × ℕ) : ℝ :=
  ∑ p ∈ Finset.range D.num, ∑ d ∈ Finset.range (D.numLocal p) with D.index p d = IJ.1,
    ∑ c ∈ Finset.range (D.numLocal p) with D.index p c = IJ.2, contactMatrix (D.part p) (s p) (d, c)

/-- `demo_nitsche_unbiased.py:435-450` `compute_residual`, see `driverResidual`. -/
def parResidual (L : LoadCase) (u x : ℕ → ℝ) (s : ℕ → State G) : ℕ → ℝ :=
  let b := parVector D s
  let b := fun d => b d + L.bulk (fun c => u c + x c) d
  let b := fun d => b d - (-1.0) * ∑ c ∈ Finset.range Z.numDofs,
    (L.bc c).elim 0 (fun g => L.stiff (fun c => u c + x c) d c * (g - x c))
  fun d => (L.bc d).elim (b d) (fun g => -1.0 * (g - x d))

/-- `demo_nitsche_unbiased.py:452-459` `compute_jacobian_matrix`, see `driverJacobian`. -/
def parJacobian (L : LoadCase) (u x : ℕ → ℝ) (s : ℕ → State G) : ℕ × ℕ → ℝ :=
  let A := parMatrix D s
  let A := fun dc : ℕ × ℕ =>
    if L.bc dc.1 = none ∧ L.bc dc.2 = none then A dc + L.stiff (fun c => u c + x c) dc.1 dc.2 else A dc
  fun dc => if dc.1 = dc.2 ∧ L.bc dc.1 ≠ none then 1 else A dc

/-- What the Newton solvers get (`demo_nitsche_unbiased.py:466-470`). -/
def parProblem (L : LoadCase) (u : ℕ → ℝ) : Newton.Problem (ℕ → ℝ) (ℕ → ℝ) (ℕ × ℕ → ℝ) (ℕ → State G) where
  coefficients := parCoefficients D
  residual := parResidual D Z L u
  jacobian := parJacobian D L u
  linSolve := Z.linSolve
  normB := norm2 Z.numDofs
  normV := norm2 Z.numDofs
  pre := fun x => x
  post := fun x => x

/-- The solvers, with the increment `du` they work on and the contact problems, and the displacement `u`. -/
structure ParRun (G : Type) where
  solver : Newton.St (ℕ → ℝ) (ℕ → ℝ) (ℕ → State G)
  u : ℕ → ℝ

/-- The exception of the first process which raises one. -/
def firstRaised {S : Type} (n : ℕ) (r : ℕ → Except (Err × S) S) : Option Err :=
  (List.range n).findSome? (fun p => match r p with
    | .error e => some e.1
    | .ok _ => none)

/-- `demo_nitsche_unbiased.py:500-510`: body of the loop over load steps, see `loadStep`. -/
def parLoadStep (rank0 : Bool) (L : LoadCase) (r : ParRun G) : Except DriverErr (Report × ParRun G) :=
  match Newton.solve (parProblem D Z L r.u) rank0 .function r.solver with
  | (_, .error e) => .error (.newton e)
  | (s, .ok (n, conv)) =>
    let u := fun d => r.u d + s.x d
    let c1 := fun p => updateDetection (D.part p).static (fun _ => Z.place u) ((D.part p).packGrad (D.seen p u)) (s.coeffs p)
    match firstRaised D.num c1 with
    | some e => .error (.contact e)
    | none =>
      let du := fun d => 0.1 * s.x d
      let c2 := fun p => updateContactData (D.part p).static ((D.part p).du (D.seen p du)) (after (c1 p))
      match firstRaised D.num c2 with
      | some e => .error (.contact e)
      | none => .ok (⟨n, conv, r.u, s.x⟩, ⟨{ s with coeffs := fun p => after (c2 p), x := du }, u⟩)

/-- `demo_nitsche_unbiased.py:492-511`: the loop over load steps. -/
def parLoadSteps (rank0 : Bool) : List LoadCase → ParRun G → List Report × Option DriverErr
  | [], _ => ([], none)
  | L :: Ls, r =>
    match parLoadStep D Z rank0 L r with
    | .error e => ([], some e)
    | .ok (R, r) =>
      let out := parLoadSteps rank0 Ls r
      (R :: out.1, out.2)

/-- `demo_nitsche_unbiased.py:351-352`, `413-425`, `466-482`, see `startRun`: process `p` calls
`generate_contact_data` with arguments `a p`. -/
def parStartRun (a : ℕ → GenArgs G) (opts : Newton.Opts) : ParRun G where
  solver := { Newton.St.init (fun _ => 0)
      (fun p => after (generate (D.part p).static (a p) (init (D.part p).static (Z.place fun _ => 0)))) (fun _ => 0) with
    opts := opts, relax := some 1.0 }
  u := fun _ => 0

end

end Verif.ContactProblem
