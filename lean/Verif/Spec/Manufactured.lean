import Mathlib.Analysis.Calculus.Deriv.Basic
import Mathlib.Algebra.BigOperators.Ring.Finset
import Mathlib.Data.Real.Basic

/-!
Specification for C196: the differential equations of elasticity and heat conduction.
-/

namespace Verif.Spec

open Finset

/-- `f'` is the partial derivative of `f` by coordinate `j`, everywhere. -/
def IsPartial (f : (ℕ → ℝ) → ℝ) (j : ℕ) (f' : (ℕ → ℝ) → ℝ) : Prop :=
  ∀ x : ℕ → ℝ, HasDerivAt (fun t => f (Function.update x j t)) (f' x) (x j)

/-- The stress of a displacement with gradient `G i j`: twice `mu` times the symmetric gradient plus `lam` times its trace times the
identity, in dimension `g`. -/
noncomputable def stressOf (g : ℕ) (mu lam : ℝ) (G : ℕ → ℕ → (ℕ → ℝ) → ℝ) (i j : ℕ) (x : ℕ → ℝ) : ℝ :=
  2 * mu * ((G i j x + G j i x) / 2) + lam * (∑ k ∈ range g, G k k x) * (if i = j then 1 else 0)

/-- `-div σ(u) = f` in dimension `g`. -/
def ElasticEquation (g : ℕ) (mu lam : ℝ) (u f : ℕ → (ℕ → ℝ) → ℝ) : Prop :=
  ∃ (G S : ℕ → ℕ → (ℕ → ℝ) → ℝ), (∀ i < g, ∀ j < g, IsPartial (u i) j (G i j))
    ∧ (∀ i < g, ∀ j < g, IsPartial (stressOf g mu lam G i j) j (S i j))
    ∧ ∀ i < g, ∀ x, -∑ j ∈ range g, S i j x = f i x

/-- `-Δu = f` in dimension `g`. -/
def HeatEquation (g : ℕ) (u f : (ℕ → ℝ) → ℝ) : Prop :=
  ∃ (G H : ℕ → (ℕ → ℝ) → ℝ), (∀ j < g, IsPartial u j (G j)) ∧ (∀ j < g, IsPartial (G j) j (H j))
    ∧ ∀ x, -∑ j ∈ range g, H j x = f x

/-- A point on the boundary of `[0, 5] × [0, 1]` or `[0, 5] × [0, 1] × [0, 1]`: one of its coordinates is extreme. -/
def OnBoxBoundary (g : ℕ) (x : ℕ → ℝ) : Prop :=
  x 0 = 0 ∨ x 0 = 5 ∨ ∃ j < g, 0 < j ∧ (x j = 0 ∨ x j = 1)

end Verif.Spec
