import Verif.Model.ThermoContact
import Verif.Spec.ThermoDemo
import Verif.Spec.Driver
import Verif.Spec.Moments
import Verif.Spec.OneSided

/-!
Specification for C172–C175: thermal expansion and contact.
-/

namespace Verif.Spec

open Verif.ContactProblem Verif.ThermoContact Verif.Kernels Finset

noncomputable section

/-- `T1` is the temperature one time step after `T0`: prescribed values, and the heat equation for the weighted mean
`tau * T1 + (1 - tau) * T0`. -/
def HeatStep (H : Thermal) (T0 T1 : ℕ → ℝ) : Prop :=
  HasValues H.numDofs H.bc T1
  ∧ ∀ r, Admissible H.numDofs H.bc r →
    formOf H.numDofs H.numDofs H.mass (fun d => T1 d - T0 d) r
      + H.kdt * formOf H.numDofs H.numDofs H.grad (fun d => H.tau * T1 d + (1 - H.tau) * T0 d) r = 0

/-- The system of a time step is solvable: the form is positive. -/
def StepPositive (H : Thermal) : Prop :=
  PositiveOn H.numDofs H.bc (fun T r => formOf H.numDofs H.numDofs H.mass T r
    + H.kdt * H.tau * formOf H.numDofs H.numDofs H.grad T r)

/-- The linear solver solves all systems with an invertible matrix, for every initial guess. -/
def SolvesAll (H : Thermal) : Prop := ∀ x0, LinearSolver H.numDofs (fun A b => H.solve A b x0)

/-- The dofs `B` belong to a body: no cell has dofs of it and of others. -/
def Separate (H : Thermal) (B : ℕ → Prop) : Prop :=
  ∀ d < H.numDofs, ∀ c < H.numDofs, ¬(B d ↔ B c) → H.mass d c = 0 ∧ H.grad d c = 0

open Classical in
/-- The heat of the body with dofs `B` at temperature `T`. -/
def heatOf (H : Thermal) (B : ℕ → Prop) (T : ℕ → ℝ) : ℝ :=
  ∑ d ∈ range H.numDofs with B d, ∑ c ∈ range H.numDofs, H.mass d c * T c

open Classical in
/-- The part of a function in a body. -/
def inBody (B : ℕ → Prop) (u : ℕ → ℝ) (d : ℕ) : ℝ := if B d then u d else 0

/-- Two thermal problems are the same for the body with dofs `B`. -/
def SameBody (H H' : Thermal) (B : ℕ → Prop) : Prop :=
  H.numDofs = H'.numDofs ∧ H.kdt = H'.kdt ∧ H.tau = H'.tau
  ∧ (∀ d, B d → H.bc d = H'.bc d) ∧ ∀ d c, B d → B c → H.mass d c = H'.mass d c ∧ H.grad d c = H'.grad d c

variable {G : Type}

/-- The equations of a time step at temperature `T`: the stress of displacement `U + x` minus the thermal stress, tested with
every virtual displacement, balances the contact form up to `tol`. -/
def ThermoBalanced (Y : System G) (t : Tracked G) (gamma theta : ℝ) (M : Mechanical) (N n : ℕ) (T U x : ℕ → ℝ) (tol : ℝ) : Prop :=
  ∀ v : ℕ → ℝ, |formOf N N M.stiff (fun d => U d + x d) v - formOf N n M.thermal T v
    + contactForm Y t .frictionless gamma theta x v| ≤ tol * magnitude N v

/-- Sum of the increments of the first `n` time steps. -/
def movedAfter (Rs : List StepReport) (n : ℕ) (d : ℕ) : ℝ := ((Rs.take n).map (fun R => R.mech.du d)).sum

/-- Thermal stress of temperature `T`: expansion `alpha`, Lamé parameters. -/
def thermalStress (alpha mu lam T : ℝ) : ℝ := alpha * (3 * lam + 2 * mu) * T

/-- Displacement `u` is free thermal expansion at the contact surfaces with temperature `T`: the traction of elastic and thermal
stress together is zero. -/
def FreeExpansion (Y : System G) (t : Tracked G) (alpha : ℝ) (T : ℕ → ℕ → ℕ → ℝ) (u : ℕ → ℝ) : Prop :=
  AtLinked Y t (fun i e cell f q => ∀ a < Y.gdim,
    (pointAt Y t i e cell f q).trac (fun a b => gradAt Y cell f u q a b + (pointAt Y t i e cell f q).grad0 a b) a
      - thermalStress alpha (t.mu i e 0) (t.lam i e 0) (T i e q) * (pointAt Y t i e cell f q).nPhys a = 0)

/-- The surfaces do not touch: the jump of the displacement is less than the gap. -/
def Apart (Y : System G) (t : Tracked G) (u : ℕ → ℝ) : Prop :=
  AtLinked Y t (fun i e cell f q => (pointAt Y t i e cell f q).dot (jumpAt Y t.cur i e cell f u q)
    < (pointAt Y t i e cell f q).dot (pointAt Y t i e cell f q).gap)

/-- The contact normal points out of the body. -/
def NormalsOutward (Y : System G) (t : Tracked G) : Prop :=
  AtLinked Y t (fun i e cell f q => 0 ≤ (pointAt Y t i e cell f q).dot (pointAt Y t i e cell f q).nPhys)

/-- Traction of the elastic stress of the displacement gradient `D` and the thermal stress. -/
def thermoTraction (d : ℕ) (mu lam alpha : ℝ) (D : ℕ → ℕ → ℝ) (T : ℝ) (n : ℕ → ℝ) (i : ℕ) : ℝ :=
  traction d mu lam D n i - thermalStress alpha mu lam T * n i

/-- Density of the virtual work of elastic and thermal stress on the strain of `E`. -/
def thermoWork (d : ℕ) (mu lam alpha : ℝ) (D : ℕ → ℕ → ℝ) (T : ℝ) (E : ℕ → ℕ → ℝ) : ℝ :=
  stressWork d mu lam D E - thermalStress alpha mu lam T * ∑ i ∈ range d, E i i

end

end Verif.Spec
