import Verif.Model.Driver

/-!
The load schedule of `python/demos/demo_nitsche_unbiased.py:366-380`, `492-511`: the displacements of the two
supports are reached in `nload_steps` steps, imposed strongly by increments or weakly by totals.

Not modelled: output, timers, near null space, ghost values (one process).
-/

namespace Verif.ContactProblem

noncomputable section

/-- `demo_nitsche_unbiased.py:366-376`: the array `displacement` with `num` rows, the dofs on the facets with the
tag of row `k`, as a predicate, and the component a dof belongs to. -/
structure Supports where
  num : ℕ
  disp : ℕ → ℕ → ℝ
  dofs : ℕ → ℕ → Bool
  comp : ℕ → ℕ

/-- `demo_nitsche_unbiased.py:492-496`: what `bc_fns[k].value[a]` is set to before load step `i` of `n`;
`len(bcs) > 0` if `lifting` was given and `displacement` has a row. -/
def scheduleValue (D : Supports) (lifting : Bool) (n i k a : ℕ) : ℝ :=
  if lifting && decide (0 < D.num) then D.disp k a / n else ((i : ℝ) + 1) * D.disp k a / n

/-- `demo_nitsche_unbiased.py:374-375`: the list `bcs` with values `g`; a later condition of the list replaces the
values of an earlier one. Simplification: `apply_lifting` is taken to see each dof once. -/
def supportBc (D : Supports) (g : ℕ → ℕ → ℝ) (d : ℕ) : Option ℝ :=
  (List.range D.num).foldl (fun v k => if D.dofs k d then some (g k (D.comp d)) else v) none

/-- Load step `i` of `n`: `demo_nitsche_unbiased.py:361`, `373-380`. `weak g` is the compiled residual with the terms
of `weak_dirichlet`, whose constants have values `g`; `strong` the one without; `weakJ`, `strongJ` the derivatives. -/
def scheduleCase (D : Supports) (strong : (ℕ → ℝ) → ℕ → ℝ) (weak : (ℕ → ℕ → ℝ) → (ℕ → ℝ) → ℕ → ℝ)
    (strongJ weakJ : (ℕ → ℝ) → ℕ → ℕ → ℝ) (lifting : Bool) (n i : ℕ) : LoadCase :=
  let g := scheduleValue D lifting n i
  if lifting then ⟨strong, strongJ, supportBc D g⟩ else ⟨weak g, weakJ, fun _ => none⟩

/-- The loop `demo_nitsche_unbiased.py:491`: load cases of `n` steps. -/
def schedule (D : Supports) (strong : (ℕ → ℝ) → ℕ → ℝ) (weak : (ℕ → ℕ → ℝ) → (ℕ → ℝ) → ℕ → ℝ)
    (strongJ weakJ : (ℕ → ℝ) → ℕ → ℕ → ℝ) (lifting : Bool) (n : ℕ) : List LoadCase :=
  (List.range n).map (scheduleCase D strong weak strongJ weakJ lifting n)

/-- `demo_nitsche_unbiased.py:312-323`: the options of the Newton solver. -/
def scheduleOpts : Newton.Opts :=
  { maxIt := 200, rtol := 1e-7, atol := 1e-7, crit := .residual, errorOnNonconvergence := true }

end

end Verif.ContactProblem
