import Verif.Spec.Kernels

namespace Verif.Spec

open Finset

noncomputable section

/-- Quadratic form `vᵀ A v` of the element matrices of a facet: block 0 of `v` are the dofs of the cell,
block `k + 1` those of linked cell `k`. -/
def energy (N links : ℕ) (A : Arr (ℕ × ℕ)) (v : ℕ → ℕ → ℝ) : ℝ :=
  ∑ B ∈ range (links + 1), ∑ r ∈ range N, v B r * blockApply N links A v B r

end

end Verif.Spec
