import Verif.Spec.TieSystem

/-!
Specification for solvability of tied problems (C146) and consistency of the assembled vectors (C147).
-/

namespace Verif.Spec

open Verif.TieData Verif.Kernels Finset

noncomputable section

/-- Quadrature sum of `h |σ n|²` over the tied points, with the stress of the mean gradient. -/
def tieTractionSquare (M : TieMesh) (E EQ : TieElement) (mat : Key → ℕ → ℝ) (v : ℕ → ℝ) : ℝ :=
  tieSum M (fun i e cell f q => M.h i e * ∑ a ∈ range M.gdim,
    traction M.gdim (midValue EQ cell f (mat .mu)) (midValue EQ cell f (mat .lam)) (tieMeanGrad M E i e cell f v q)
      (tieOutward M cell f q) a ^ 2)

/-- Quadrature sum of `h κ |∇v · n|²` over the tied points, with the mean gradient. -/
def tieFluxSquare (M : TieMesh) (E EQ : TieElement) (mat : Key → ℕ → ℝ) (v : ℕ → ℝ) : ℝ :=
  tieSum M (fun i e cell f q => M.h i e * midValue EQ cell f (mat .kdt)
    * (∑ b ∈ range M.gdim, tieMeanGrad M E i e cell f v q 0 b * tieOutward M cell f q b) ^ 2)

/-- The first `k` components of a function do not jump at the tied points. -/
def NoJump (M : TieMesh) (E : TieElement) (k : ℕ) (v : ℕ → ℝ) : Prop :=
  ∀ i < M.numPairs, ∀ e < M.localFacets i, ∀ cell f, (M.facets i)[e]? = some (cell, f) → ∀ q < M.nq, Tied M i e q →
    ∀ a < k, tieJumpAt M E i e cell f v q a = 0

/-- The matrix `K` of the bodies, on functions that vanish off the free dofs `F`: not negative, controls
`(1 + θ)² / (8 γ)` times the size `T` of the tractions with a factor less than one, and is zero only for
functions that are zero or jump.  Bodies may float: `K` may be zero for rigid motions of one body. -/
def TieCoercive (M : TieMesh) (E : TieElement) (k : ℕ) (T : (ℕ → ℝ) → ℝ) (gamma theta : ℝ) (N : ℕ) (F : Finset ℕ)
    (K : ℕ → ℕ → ℝ) : Prop :=
  ∃ c < 1, ∀ v : ℕ → ℝ, (∀ d, d ∉ F → v d = 0) →
    0 ≤ ∑ d ∈ range N, ∑ c ∈ range N, v d * K d c * v c
    ∧ (1 + theta) ^ 2 / (8 * gamma) * T v ≤ c * ∑ d ∈ range N, ∑ c ∈ range N, v d * K d c * v c
    ∧ (∑ d ∈ range N, ∑ c ∈ range N, v d * K d c * v c = 0 → NoJump M E k v → ∀ d, v d = 0)

/-- Virtual work of the traction of the mean stress of `u` on the jump of `v` at the tied points. -/
def tieTractionWork (M : TieMesh) (E EQ : TieElement) (mat : Key → ℕ → ℝ) (u v : ℕ → ℝ) : ℝ :=
  tieSum M (fun i e cell f q => ∑ a ∈ range M.gdim,
    traction M.gdim (midValue EQ cell f (mat .mu)) (midValue EQ cell f (mat .lam)) (tieMeanGrad M E i e cell f u q)
      (tieOutward M cell f q) a * tieJumpAt M E i e cell f v q a)

/-- The mean heat flux of `u` times the jump of `v` at the tied points. -/
def tieFluxWork (M : TieMesh) (E EQ : TieElement) (mat : Key → ℕ → ℝ) (u v : ℕ → ℝ) : ℝ :=
  tieSum M (fun i e cell f q => midValue EQ cell f (mat .kdt)
    * (∑ b ∈ range M.gdim, tieMeanGrad M E i e cell f u q 0 b * tieOutward M cell f q b) * tieJumpAt M E i e cell f v q 0)

end

end Verif.Spec
