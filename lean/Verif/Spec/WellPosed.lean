import Verif.Spec.SystemTangent

/-!
Specification for C143 and C144: the size of the contact tractions of a displacement.
-/

namespace Verif.Spec

open Verif.ContactProblem Finset

noncomputable section

variable {G : Type}

/-- Square of the normal traction of a displacement gradient, with friction plus that of the tangential
traction, times the mesh size. -/
def ContactPoint.tractionSquare (p : ContactPoint) (law : Law) (D : ℕ → ℕ → ℝ) : ℝ :=
  p.h * (p.dot (p.trac D) ^ 2 + if law = .frictionless then 0 else ∑ a ∈ range p.g, p.tang (p.trac D) a ^ 2)

/-- The quadrature sum of `h |σ(v) n|²` over the linked points of the contact surfaces: the quantity a
discrete trace inequality bounds by the elastic energy of `v`. -/
def tractionSquare (Y : System G) (t : Tracked G) (law : Law) (v : ℕ → ℝ) : ℝ :=
  ∑ i ∈ range Y.numPairs, ∑ e ∈ range (Y.localFacets i),
    ((Y.facets i)[e]?).elim 0 (fun p => ∑ q ∈ range Y.nq,
      if 0 ≤ Y.map t.cur i (e * Y.nq + q) then
        weightAt Y p.1 p.2 q * (pointAt Y t i e p.1 p.2 q).tractionSquare law (gradAt Y p.1 p.2 v q)
      else 0)

/-- The elastic energy of `v` (twice, `K` is the stiffness matrix of the bodies) exceeds
`(1 + θ)² / (8 γ)` times the size of its contact tractions, for every `v` which vanishes at the constrained
dofs (those not in `F`) and is not zero. For `θ = -1` this says that the stiffness matrix is positive definite on
the free dofs; for other `θ` it is a discrete trace inequality with `γ` large enough. -/
def Coercive (Y : System G) (t : Tracked G) (law : Law) (gamma theta : ℝ) (N : ℕ) (F : Finset ℕ) (K : ℕ → ℕ → ℝ) : Prop :=
  ∀ v : ℕ → ℝ, (∀ d, d ∉ F → v d = 0) → (∃ d, v d ≠ 0) →
    (1 + theta) ^ 2 / (8 * gamma) * tractionSquare Y t law v
      < ∑ d ∈ range N, ∑ c ∈ range N, v d * K d c * v c

end

end Verif.Spec
