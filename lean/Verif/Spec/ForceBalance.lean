import Verif.Spec.ForceDriven
import Verif.Spec.Reactions

/-!
Specification for C223: the upper cylinder.
-/

namespace Verif.Spec

open Finset Verif.ContactProblem

noncomputable section

/-- The dofs `B` are the upper body: moving it strains nothing, it has no dof of the bottom, and symmetry holds horizontal
dofs only. Dof `d` has component `d % 2`. `size` is the length of the top: the basis functions sum to one. -/
structure UpperBody (D : CylinderDofs) (inner : (ℕ → ℝ) → ℕ → ℝ) (w : ℕ → ℝ) (B : Finset ℕ) (size : ℝ) : Prop where
  unstrained : ∀ n < 2, ∀ u, ∑ d ∈ B with d % 2 = n, inner u d = 0
  comp : ∀ d ∈ B, D.comp d = d % 2
  bottom : ∀ d ∈ B, D.bottom d = false
  symmetry : ∀ d ∈ B, D.symmetry d = true → d % 2 = 0
  measure : ∀ n < 2, ∑ d ∈ B with d % 2 = n, w d = size

end

end Verif.Spec
