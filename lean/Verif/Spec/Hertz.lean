import Mathlib.MeasureTheory.Measure.Lebesgue.VolumeOfBalls
import Mathlib.MeasureTheory.Integral.Bochner.Set

/-!
Specification for C208 and C209: contact of two elastic cylinders, pressed together (Hertz) and pushed sideways
(Cattaneo, Mindlin), as functions of the distance from the middle of the contact zone.
-/

namespace Verif.Spec.Hertz

open Real MeasureTheory

/-- The modulus of two bodies in contact: the compliances of plane strain add. -/
def IsContactModulus (E1 nu1 E2 nu2 Estar : ℝ) : Prop := 1 / Estar = (1 - nu1 ^ 2) / E1 + (1 - nu2 ^ 2) / E2

/-- Hertz: the pressure of a force `P` per length that presses cylinders of relative radius `Rrel` together. The contact
zone is `(-a, a)`, the pressure is a half ellipse, and half width and force are related through the modulus `Estar`. -/
structure IsHertz (Rrel Estar P a : ℝ) (p : ℝ → ℝ) : Prop where
  pos : 0 < a
  width : a ^ 2 = 4 * P * Rrel / (π * Estar)
  outside : ∀ x, a ≤ |x| → p x = 0
  inside : ∀ x, |x| < a → 0 < p x
  ellipse : ∀ x, |x| ≤ a → (p x / (Estar * a / (2 * Rrel))) ^ 2 + (x / a) ^ 2 = 1
  resultant : ∫ x, p x = P

/-- Cattaneo and Mindlin: the tangential traction `t` under a pressure `p` that transmits the force `Q` by Coulomb
friction, with slip exactly where the distance from the middle is at least `c`. In the sticking zone the traction is
that of full slip less that of a smaller ellipse of half width `c`, similar to that of the pressure. -/
structure IsCattaneoMindlin (fric Q a c : ℝ) (p t : ℝ → ℝ) : Prop where
  stickZone : 0 ≤ c ∧ c ≤ a
  law : ∀ x, 0 ≤ t x ∧ t x ≤ fric * p x
  slip : ∀ x, t x = fric * p x ↔ c ≤ |x|
  stick : ∀ x, |x| < c → t x = fric * (p x - c / a * p (x * (a / c)))
  resultant : ∫ x, t x = Q

/-- The lower half of a ball. -/
def halfBall (R : ℝ) : Set (EuclideanSpace ℝ (Fin 3)) := {x | x ∈ Metric.ball 0 R ∧ x 2 ≤ 0}

end Verif.Spec.Hertz
