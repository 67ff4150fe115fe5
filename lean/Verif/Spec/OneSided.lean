import Verif.Spec.Elasticity
import Verif.Spec.ContactLaw

/-!
Specification of the one-sided problem: a body above a rigid plane orthogonal to the last axis.  Fields are
given by their values and gradients at quadrature points.
-/

namespace Verif.Spec

open Finset

noncomputable section

/-- Shear modulus of a material with Young's modulus `E` and Poisson ratio `nu`. -/
def shearModulus (E nu : ℝ) : ℝ := E / (2 * (1 + nu))

/-- First Lamé parameter, for plane strain (and three dimensions) or plane stress. -/
def lameFirst (planeStrain : Bool) (E nu : ℝ) : ℝ :=
  if planeStrain then E * nu / ((1 + nu) * (1 - 2 * nu)) else E * nu / ((1 + nu) * (1 - nu))

/-- Density of the virtual work of the stress of the displacement gradient `G` on the strain of `H`. -/
def stressWork (d : ℕ) (mu lam : ℝ) (G H : ℕ → ℕ → ℝ) : ℝ :=
  ∑ i ∈ range d, ∑ j ∈ range d, stress d mu lam G i j * strain H i j

/-- Movement towards a plane below the body: minus the last component. -/
def approach (d : ℕ) (u : ℕ → ℝ) : ℝ := -u (d - 1)

/-- Sum over quadrature points. -/
def quadSum (ks : List ℕ) (wt : ℕ → ℝ) (f : ℕ → ℝ) : ℝ := (ks.map (fun k => wt k * f k)).sum

end

end Verif.Spec
