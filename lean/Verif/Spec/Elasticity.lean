import Mathlib.Data.Real.Basic
import Mathlib.Algebra.BigOperators.Group.Finset.Basic

/-! Linear elasticity in the textbook form, independent of the model. -/

namespace Verif.Spec

open Finset

noncomputable section

/-- Strain `ε(G) = (G + Gᵀ) / 2` of a displacement gradient `G i j = ∂ u_i / ∂ x_j`. -/
def strain (G : ℕ → ℕ → ℝ) (i j : ℕ) : ℝ := (G i j + G j i) / 2

/-- Cauchy stress `2 μ ε + λ tr(ε) I` in dimension `d`. -/
def stress (d : ℕ) (mu lam : ℝ) (G : ℕ → ℕ → ℝ) (i j : ℕ) : ℝ :=
  2 * mu * strain G i j + if i = j then lam * ∑ k ∈ range d, strain G k k else 0

/-- Traction `σ(G) n`. -/
def traction (d : ℕ) (mu lam : ℝ) (G : ℕ → ℕ → ℝ) (n : ℕ → ℝ) (i : ℕ) : ℝ :=
  ∑ j ∈ range d, stress d mu lam G i j * n j

end

end Verif.Spec
