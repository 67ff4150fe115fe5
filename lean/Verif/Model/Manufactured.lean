import Mathlib.Analysis.SpecialFunctions.Trigonometric.Basic

/-!
Manufactured solutions and forcing of the convergence tests for tied bodies.  A point is `x : ℕ → ℝ` (`x[0]`, `x[1]`, `x[2]`), a
vector field gives component `i` of `gdim`; the arrays over points are not modelled.
-/

namespace Verif.Manufactured

noncomputable section

open Real

/-- `u_fun_2d` (`python/demos/meshtie_convergence.py:53-57`). -/
def uFun2d (d : ℝ) (i : ℕ) (x : ℕ → ℝ) : ℝ :=
  let u2 := d * sin (2 * π * x 0 / 5) * sin (2 * π * x 1)
  if i = 1 then u2 else 0

/-- `fun_2d` (`meshtie_convergence.py:62-73`). -/
def fun2d (d mu lmbda : ℝ) (i : ℕ) (x : ℕ → ℝ) : ℝ :=
  let a := 2 * π / 5
  let b := 2 * π
  let f1 := -(lmbda + mu) * a * b * cos (a * x 0) * cos (b * x 1)
  let f2 := (mu * a ^ 2 + (2 * mu + lmbda) * b ^ 2) * sin (a * x 0) * sin (b * x 1)
  if i = 0 then d * f1 else if i = 1 then d * f2 else 0

/-- `u_fun_3d` (`meshtie_convergence.py:78-82`). -/
def uFun3d (d : ℝ) (i : ℕ) (x : ℕ → ℝ) : ℝ :=
  let u2 := d * sin (2 * π * x 0 / 5) * sin (2 * π * x 1) * sin (2 * π * x 2)
  if i = 1 then u2 else 0

/-- `fun_3d` (`meshtie_convergence.py:87-105`). -/
def fun3d (d mu lmbda : ℝ) (i : ℕ) (x : ℕ → ℝ) : ℝ :=
  let a := 2 * π / 5
  let b := 2 * π
  let c := 2 * π
  let f1 := -(lmbda + mu) * a * b * cos (a * x 0) * cos (b * x 1) * sin (c * x 2)
  let f2 := (mu * (a ^ 2 + c ^ 2) + (2 * mu + lmbda) * b ^ 2) * sin (a * x 0) * sin (b * x 1) * sin (c * x 2)
  let f3 := -(lmbda + mu) * b * c * sin (a * x 0) * cos (b * x 1) * cos (c * x 2)
  if i = 0 then d * f1 else if i = 1 then d * f2 else if i = 2 then d * f3 else 0

/-- `u_fun_2d` (`meshtie_demos/poisson_convergence.py:47-48`). -/
def heatFun2d (d : ℝ) (x : ℕ → ℝ) : ℝ := d * sin (2 * π * x 0 / 5) * sin (2 * π * x 1)

/-- `fun_2d` (`poisson_convergence.py:53-56`). -/
def heatSource2d (d : ℝ) (x : ℕ → ℝ) : ℝ :=
  let a := 2 * π / 5
  let b := 2 * π
  d * (a ^ 2 + b ^ 2) * sin (2 * π * x 0 / 5) * sin (2 * π * x 1)

/-- `u_fun_3d` (`poisson_convergence.py:62-63`). -/
def heatFun3d (d : ℝ) (x : ℕ → ℝ) : ℝ := d * sin (2 * π * x 0 / 5) * sin (2 * π * x 1) * sin (2 * π * x 2)

/-- `fun_3d` (`poisson_convergence.py:68-73`). -/
def heatSource3d (d : ℝ) (x : ℕ → ℝ) : ℝ :=
  let a := 2 * π / 5
  let b := 2 * π
  let c := 2 * π
  (a ^ 2 + b ^ 2 + c ^ 2) * d * sin (a * x 0) * sin (b * x 1) * sin (c * x 2)

end

end Verif.Manufactured
