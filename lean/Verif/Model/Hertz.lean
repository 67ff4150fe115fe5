import Mathlib.Analysis.SpecialFunctions.Pow.Real
import Mathlib.Analysis.SpecialFunctions.Trigonometric.Basic

/-!
Model of the analytic solutions the Hertz and friction demos write beside the computed contact forces
(`demo_friction_cylinders.py`, `demo_friction_cylinders_force_driven.py`, `demo_hertzian_contact.py`).

Numbers are reals; `none` is a value that is not a number, which `np.sqrt` returns for negative arguments, or an
exception (division of a Python float by zero). Comparisons with `none` are false, as for NaN.
-/

namespace Verif.Hertz

open Real

/-- `np.sqrt`. -/
noncomputable def nsqrt (x : ℝ) : Option ℝ := if x < 0 then none else some (√x)

/-- `Estar` of the friction demos: `demo_friction_cylinders.py:89`, `demo_friction_cylinders_force_driven.py:87`. -/
noncomputable def estarCylinders (E nu : ℝ) : ℝ := E / (2 * (1 - nu ^ 2))

/-- `Estar` of `demo_hertzian_contact.py:149`. -/
noncomputable def estarHertz (E1 E2 nu1 nu2 : ℝ) : ℝ := E1 * E2 / (E2 * (1 - nu1 ^ 2) + E1 * (1 - nu2 ^ 2))

/-- The numbers computed after a load step: half width `a` of the contact zone, pressure `p0` in the middle, load per
length `pr`, half width `c` of the sticking zone. -/
structure Ref where
  a : ℝ
  p0 : ℝ
  pr : ℝ
  c : Option ℝ

/-- `demo_friction_cylinders.py:354-364` (with zero in place of `q`) and `:443-452`;
`demo_friction_cylinders_force_driven.py:339-346` and `:413-421`. `none` if `fric * abs(pr)` is zero: the division
`q / (fric * abs(pr))` raises, or is not a number. -/
noncomputable def reference (R Estar fric pr q : ℝ) : Option Ref :=
  if fric * |pr| = 0 then none
  else do
    let load := 2 * R * |pr|
    let s ← nsqrt (R * load / (2 * π * Estar))
    let a := 2 * s
    some { a := a, p0 := 2 * load / (π * a), pr := |pr|,
           c := (nsqrt (1 - q / (fric * |pr|))).map (fun s => a * s) }

/-- `_pressure`, value at one point: `demo_friction_cylinders.py:235-240`,
`demo_friction_cylinders_force_driven.py:230-235`, `demo_hertzian_contact.py:307-312`. -/
noncomputable def pressure (p0 a x : ℝ) : Option ℝ :=
  if |x| < a then (nsqrt (1 - x ^ 2 / a ^ 2)).map (fun s => p0 * s) else some 0

/-- `_tangent`, value at one point, with the condition of the second branch as an argument. -/
noncomputable def tangentIf (second : Prop) [Decidable second] (fric R p a : ℝ) (c : Option ℝ) (x : ℝ) : Option ℝ :=
  match c with
  | some c =>
    if |x| ≤ c then do
      let s ← nsqrt (a ^ 2 - x ^ 2)
      let r ← nsqrt (c ^ 2 - x ^ 2)
      some (fric * 4 * R * p / (π * a ^ 2) * (s - r))
    else if second then (nsqrt (a ^ 2 - x ^ 2)).map (fun s => fric * 4 * R * p / (π * a ^ 2) * s)
    else some 0
  | none =>
    if second then (nsqrt (a ^ 2 - x ^ 2)).map (fun s => fric * 4 * R * p / (π * a ^ 2) * s)
    else some 0

/-- `_tangent` of `demo_friction_cylinders.py:219-233`: the second condition is `abs(x[0][i] < a)`, the absolute value
of a Boolean. -/
noncomputable def tangentCylinders (fric R p a : ℝ) (c : Option ℝ) (x : ℝ) : Option ℝ :=
  tangentIf (x < a) fric R p a c x

/-- `_tangent` of `demo_friction_cylinders_force_driven.py:214-228`. -/
noncomputable def tangentForce (fric R p a : ℝ) (c : Option ℝ) (x : ℝ) : Option ℝ :=
  tangentIf (|x| < a) fric R p a c x

/-- The two problems of `demo_hertzian_contact.py`: 1 is driven by a body force, 2 by a traction on the top. -/
inductive Problem where
  | body
  | traction

/-- The density of the force after step `i` of `steps`: `demo_hertzian_contact.py:216-223` (three dimensions),
`:295-302` (two dimensions), with the factor of the load loop (`:487-491`). The force points downwards. -/
noncomputable def density (threed : Bool) (pb : Problem) (R load : ℝ) (steps i : ℕ) : ℝ :=
  (match threed, pb with
    | true, .body => 3 * load / (4 * π * R ^ 3)
    | true, .traction => load / (π * R ^ 2)
    | false, .body => load / (π * R ^ 2)
    | false, .traction => load / (2 * R)) * (i + 1) / steps

/-- Half width and pressure written after step `i` in two dimensions: `demo_hertzian_contact.py:495-496`. -/
noncomputable def stepReference (R Estar load : ℝ) (steps i : ℕ) : Option (ℝ × ℝ) := do
  let s ← nsqrt (R * load * (i + 1) / (steps * π * Estar))
  let a := 2 * s
  if a = 0 then none else some (2 * load * (i + 1) / (steps * π * a), a)

end Verif.Hertz
