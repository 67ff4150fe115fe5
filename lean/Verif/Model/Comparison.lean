import Mathlib.Algebra.BigOperators.Group.Finset.Basic
import Mathlib.Analysis.Real.Sqrt

/-!
Comparison of two solutions in `python/demos/new_demo_custom_snes_one_sided.py`, `new_demo_compare_nitsche_snes.py`
and `debug.py`.  Real numbers instead of doubles; division by zero as in NumPy.
-/

namespace Verif.Comparison

open Finset

noncomputable section

/-- The data of `assemble_scalar(form(inner(w, w) * dx))` for a function `w` of a vector space on a mesh of one refinement
level.  The form compiler tabulates the basis functions (`phi`) and the weights times the Jacobian determinants
(`weight`) for every cell; cells are given by their global number, `cells p` are those owned by process `p`. -/
structure Level where
  gdim : ℕ
  nq : ℕ
  ndofs : ℕ
  weight : ℕ → ℕ → ℝ
  phi : ℕ → ℕ → ℕ → ℝ
  dof : ℕ → ℕ → ℕ
  procs : ℕ
  cells : ℕ → List ℕ

/-- Component `k` of the function with coefficients `u` at quadrature point `q` of a cell. -/
def Level.value (L : Level) (u : ℕ → ℕ → ℝ) (c q k : ℕ) : ℝ := ∑ j ∈ range L.ndofs, L.phi c q j * u (L.dof c j) k

/-- `new_demo_custom_snes_one_sided.py:166` `error`: the integrand `inner(u1 - u2, u1 - u2)`. -/
def Level.errorAt (L : Level) (u1 u2 : ℕ → ℕ → ℝ) (c q : ℕ) : ℝ :=
  ∑ k ∈ range L.gdim, (L.value u1 c q k - L.value u2 c q k) * (L.value u1 c q k - L.value u2 c q k)

/-- `new_demo_custom_snes_one_sided.py:168` `u2_norm`: the integrand `inner(u2, u2)`. -/
def Level.normAt (L : Level) (u2 : ℕ → ℕ → ℝ) (c q : ℕ) : ℝ :=
  ∑ k ∈ range L.gdim, L.value u2 c q k * L.value u2 c q k

/-- `assemble_scalar`: sum over the cells owned by process `p`. -/
def Level.assembleScalar (L : Level) (f : ℕ → ℕ → ℝ) (p : ℕ) : ℝ :=
  ((L.cells p).map (fun c => ∑ q ∈ range L.nq, L.weight c q * f c q)).sum

/-- `mesh.comm.allreduce(…, op=MPI.SUM)`. -/
def Level.allreduce (L : Level) (x : ℕ → ℝ) : ℝ := ∑ p ∈ range L.procs, x p

/-- `new_demo_custom_snes_one_sided.py:167` `E_L2`. -/
def Level.error (L : Level) (u1 u2 : ℕ → ℕ → ℝ) : ℝ :=
  Real.sqrt (L.allreduce (L.assembleScalar (L.errorAt u1 u2)))

/-- `new_demo_custom_snes_one_sided.py:169` `u2_L2`. -/
def Level.norm (L : Level) (u2 : ℕ → ℕ → ℝ) : ℝ := Real.sqrt (L.allreduce (L.assembleScalar (L.normAt u2)))

/-- Result of a division of nonnegative `np.float64` numbers. -/
inductive Num where
  | val (x : ℝ) | inf | nan

/-- `a / b` for nonnegative `np.float64` numbers. -/
def npDiv (a b : ℝ) : Num := if b = 0 then (if a = 0 then .nan else .inf) else .val (a / b)

/-- `x < c`. -/
def Num.lt : Num → ℝ → Prop
  | .val x, c => x < c
  | .inf, _ => False
  | .nan, _ => False

/-- How a demo ends. -/
inductive Outcome where
  | ok
  /-- `AssertionError` -/
  | assertion
  /-- `IndexError` -/
  | index
  deriving DecidableEq

/-- `new_demo_custom_snes_one_sided.py:173-174`: the entries appended to `e_abs` and `e_rel`. -/
def entry (R : Level × (ℕ → ℕ → ℝ) × (ℕ → ℕ → ℝ)) : ℝ × Num :=
  (R.1.error R.2.1 R.2.2, npDiv (R.1.error R.2.1 R.2.2) (R.1.norm R.2.2))

open Classical in
/-- `new_demo_custom_snes_one_sided.py:117-174,195-196`: the loop over the refinement levels, with the solutions `u1` of
Nitsche's method and `u2` of SNES on each of them, and the assertions on the last entries.  The output and the timings
between them are left out. -/
def compare (runs : List (Level × (ℕ → ℕ → ℝ) × (ℕ → ℕ → ℝ))) : Outcome :=
  match (runs.map entry).getLast? with
  | none => .index
  | some e => if ¬ e.2.lt 1e-3 then .assertion else if ¬ e.1 < 1e-4 then .assertion else .ok

end

end Verif.Comparison
