import Verif.Model.HertzSteps
import Verif.Spec.Phases
import Verif.Spec.Reactions

/-!
Specification for C222: a body which is free to move downwards.
-/

namespace Verif.Spec

open Finset

noncomputable section

/-- The dofs `B` are a body which is not held along the last axis: moving it there strains nothing, and none of its dofs
of this axis is prescribed. `size` is the measure of where the load acts: the basis functions sum to one. -/
structure FreeToSink (g : ℕ) (inner : (ℕ → ℝ) → ℕ → ℝ) (m : ℕ → ℝ) (pinned : ℕ → Bool) (B : Finset ℕ) (size : ℝ) : Prop where
  unstrained : ∀ u, ∑ d ∈ B with d % g = g - 1, inner u d = 0
  free : ∀ d ∈ B, d % g = g - 1 → pinned d = false
  measure : ∑ d ∈ B with d % g = g - 1, m d = size

/-- The size of the disk or ball (body force), or of the line or disk on top of half of one (traction), with radius `R`. -/
def exactSize (threed : Bool) (pb : Hertz.Problem) (R : ℝ) : ℝ :=
  match threed, pb with
  | true, .body => 4 / 3 * Real.pi * R ^ 3
  | true, .traction => Real.pi * R ^ 2
  | false, .body => Real.pi * R ^ 2
  | false, .traction => 2 * R

end

end Verif.Spec
