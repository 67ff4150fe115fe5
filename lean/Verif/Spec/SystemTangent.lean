import Verif.Spec.System

/-!
Specification for C131: the linearised weak form of a contact problem.
-/

namespace Verif.Spec

open Verif.ContactProblem Verif.Kernels Finset

noncomputable section

variable {G : Type}

/-- Derivative of the projection onto the ball of radius `r`, at `x` in direction `y`: the identity inside,
the derivative of `r x / |x|` outside and on the sphere. -/
def ballSlope (g : ℕ) (x : ℕ → ℝ) (r : ℝ) (y : ℕ → ℝ) (a : ℕ) : ℝ :=
  if Real.sqrt (∑ b ∈ range g, x b ^ 2) < r then y a
  else r / Real.sqrt (∑ b ∈ range g, x b ^ 2) * y a
    - r * (∑ b ∈ range g, x b * y b) * x a / Real.sqrt (∑ b ∈ range g, x b ^ 2) ^ 3

/-- Derivative of the projection with respect to the radius. -/
def ballRadiusSlope (g : ℕ) (x : ℕ → ℝ) (r : ℝ) (a : ℕ) : ℝ :=
  if r < Real.sqrt (∑ b ∈ range g, x b ^ 2) then x a / Real.sqrt (∑ b ∈ range g, x b ^ 2) else 0

/-- The derivative of the projection as `d_ball_projection` computes it: zero for radii less than
`1e-14`. -/
def cutSlope (g : ℕ) (x : ℕ → ℝ) (r : ℝ) (y : ℕ → ℝ) (a : ℕ) : ℝ :=
  if r < 1e-14 then 0 else ballSlope g x r y a

/-- Type of a derivative of the projection: dimension, vector, radius, direction, component. -/
abbrev Slope := ℕ → (ℕ → ℝ) → ℝ → (ℕ → ℝ) → ℕ → ℝ

/-- Derivative of the positive part. -/
def step (x : ℝ) : ℝ := if 0 < x then 1 else 0

/-- Derivative of the pressure `P` in the direction with jump `J`, gradient `D`. -/
def ContactPoint.dPressure (p : ContactPoint) (gamma : ℝ) (J : ℕ → ℝ) (D : ℕ → ℕ → ℝ) : ℝ :=
  p.dot J - p.h / gamma * p.dot (p.trac D)

/-- The normal part linearised at jump `J`, gradient `D`, in the direction `K`, `E`, tested with `J'`,
`D'`. -/
def ContactPoint.dNormalPart (p : ContactPoint) (gamma theta : ℝ) (J : ℕ → ℝ) (D : ℕ → ℕ → ℝ)
    (K : ℕ → ℝ) (E : ℕ → ℕ → ℝ) (J' : ℕ → ℝ) (D' : ℕ → ℕ → ℝ) : ℝ :=
  1 / 2 * (gamma / p.h) * (step (p.pressure gamma J D) * p.dPressure gamma K E)
      * (p.dot J' - theta * (p.h / gamma) * p.dot (p.trac D'))
    - 1 / 2 * theta * (p.h / gamma) * p.dot (p.trac E) * p.dot (p.trac D')

/-- Derivative of the projected slip; `S` is the derivative of the projection. -/
def ContactPoint.dProjected (p : ContactPoint) (S : Slope) (law : Law) (gamma : ℝ) (J : ℕ → ℝ) (D : ℕ → ℕ → ℝ)
    (K : ℕ → ℝ) (E : ℕ → ℕ → ℝ) : ℕ → ℝ :=
  match law with
  | .frictionless => fun _ => 0
  | .tresca => S p.g (p.slip gamma J D) (p.h / gamma * p.fric) (p.slip gamma K E)
  | .coulomb => fun a =>
      S p.g (fun a => p.slip gamma J D a - (p.dot p.gap - p.dot J) * p.tang p.oldNormal a)
        (p.fric * max 0 (p.pressure gamma J D)) (fun a => p.slip gamma K E a + p.dot K * p.tang p.oldNormal a) a
      + ballRadiusSlope p.g (fun a => p.slip gamma J D a - (p.dot p.gap - p.dot J) * p.tang p.oldNormal a)
        (p.fric * max 0 (p.pressure gamma J D)) a
        * (p.fric * (step (p.pressure gamma J D) * p.dPressure gamma K E))

/-- The friction part linearised. -/
def ContactPoint.dFrictionPart (p : ContactPoint) (S : Slope) (law : Law) (gamma theta : ℝ) (J : ℕ → ℝ)
    (D : ℕ → ℕ → ℝ) (K : ℕ → ℝ) (E : ℕ → ℕ → ℝ) (J' : ℕ → ℝ) (D' : ℕ → ℕ → ℝ) : ℝ :=
  1 / 2 * (gamma / p.h) * ∑ a ∈ range p.g, p.dProjected S law gamma J D K E a
      * (p.tang J' a - theta * (p.h / gamma) * p.tang (p.trac D') a)
    - 1 / 2 * theta * (p.h / gamma) * ∑ a ∈ range p.g, p.tang (p.trac E) a * p.tang (p.trac D') a

/-- The form of a point linearised. -/
def ContactPoint.dForm (p : ContactPoint) (S : Slope) (law : Law) (gamma theta : ℝ) (J : ℕ → ℝ)
    (D : ℕ → ℕ → ℝ) (K : ℕ → ℝ) (E : ℕ → ℕ → ℝ) (J' : ℕ → ℝ) (D' : ℕ → ℕ → ℝ) : ℝ :=
  p.dNormalPart gamma theta J D K E J' D'
    + if law = .frictionless then 0 else p.dFrictionPart S law gamma theta J D K E J' D'

/-- Nitsche's form linearised at displacement `u` in direction `w`, tested with `v`: the quadrature sum over
the owned facets and their linked points. -/
def contactTangent (Y : System G) (t : Tracked G) (S : Slope) (law : Law) (gamma theta : ℝ) (u w v : ℕ → ℝ) : ℝ :=
  ∑ i ∈ range Y.numPairs, ∑ e ∈ range (Y.localFacets i),
    ((Y.facets i)[e]?).elim 0 (fun p => ∑ q ∈ range Y.nq,
      if 0 ≤ Y.map t.cur i (e * Y.nq + q) then
        weightAt Y p.1 p.2 q * (pointAt Y t i e p.1 p.2 q).dForm S law gamma theta
          (jumpAt Y t.cur i e p.1 p.2 u q)
          (fun a b => gradAt Y p.1 p.2 u q a b + (pointAt Y t i e p.1 p.2 q).grad0 a b)
          (jumpAt Y t.cur i e p.1 p.2 w q) (gradAt Y p.1 p.2 w q)
          (jumpAt Y t.cur i e p.1 p.2 v q) (gradAt Y p.1 p.2 v q)
      else 0)

/-- The radius of the friction ball at a point. -/
def ContactPoint.bound (p : ContactPoint) (law : Law) (gamma : ℝ) (J : ℕ → ℝ) (D : ℕ → ℕ → ℝ) : ℝ :=
  match law with
  | .frictionless => 0
  | .tresca => p.h / gamma * p.fric
  | .coulomb => p.fric * max 0 (p.pressure gamma J D)

/-- At all linked points the radius of the friction ball is zero or at least `1e-14`. -/
def BoundsResolved (Y : System G) (t : Tracked G) (law : Law) (gamma : ℝ) (u : ℕ → ℝ) : Prop :=
  ∀ i < Y.numPairs, ∀ e < Y.localFacets i, ∀ cell f, (Y.facets i)[e]? = some (cell, f) → ∀ q < Y.nq,
    0 ≤ Y.map t.cur i (e * Y.nq + q) →
    (pointAt Y t i e cell f q).bound law gamma (jumpAt Y t.cur i e cell f u q)
      (fun a b => gradAt Y cell f u q a b + (pointAt Y t i e cell f q).grad0 a b) = 0
    ∨ 1e-14 ≤ (pointAt Y t i e cell f q).bound law gamma (jumpAt Y t.cur i e cell f u q)
      (fun a b => gradAt Y cell f u q a b + (pointAt Y t i e cell f q).grad0 a b)

/-- The vector which is projected onto the friction ball. -/
def ContactPoint.trial (p : ContactPoint) (law : Law) (gamma : ℝ) (J : ℕ → ℝ) (D : ℕ → ℕ → ℝ) : ℕ → ℝ :=
  match law with
  | .frictionless => fun _ => 0
  | .tresca => p.slip gamma J D
  | .coulomb => fun a => p.slip gamma J D a - (p.dot p.gap - p.dot J) * p.tang p.oldNormal a

/-- At no linked point the contact status switches, from open to closed or from stick to slip. -/
def NoSwitch (Y : System G) (t : Tracked G) (law : Law) (gamma : ℝ) (u : ℕ → ℝ) : Prop :=
  ∀ i < Y.numPairs, ∀ e < Y.localFacets i, ∀ cell f, (Y.facets i)[e]? = some (cell, f) → ∀ q < Y.nq,
    0 ≤ Y.map t.cur i (e * Y.nq + q) →
    (pointAt Y t i e cell f q).pressure gamma (jumpAt Y t.cur i e cell f u q)
      (fun a b => gradAt Y cell f u q a b + (pointAt Y t i e cell f q).grad0 a b) ≠ 0
    ∧ (law ≠ .frictionless →
      0 ≤ (pointAt Y t i e cell f q).bound law gamma (jumpAt Y t.cur i e cell f u q)
        (fun a b => gradAt Y cell f u q a b + (pointAt Y t i e cell f q).grad0 a b)
      ∧ Real.sqrt (∑ c ∈ range Y.gdim, (pointAt Y t i e cell f q).trial law gamma (jumpAt Y t.cur i e cell f u q)
          (fun a b => gradAt Y cell f u q a b + (pointAt Y t i e cell f q).grad0 a b) c ^ 2)
        ≠ (pointAt Y t i e cell f q).bound law gamma (jumpAt Y t.cur i e cell f u q)
        (fun a b => gradAt Y cell f u q a b + (pointAt Y t i e cell f q).grad0 a b))

end

end Verif.Spec
