import Mathlib.Algebra.BigOperators.Group.Finset.Basic
import Mathlib.Data.Real.Basic

/-! Convex hulls and nearest points, for C93. -/

namespace Verif.Projection

open Finset

/-- `z` is, in its first `dim` components, a convex combination of the `n` points `p 0`, …. -/
def InHull (dim n : ℕ) (p : ℕ → ℕ → ℝ) (z : ℕ → ℝ) : Prop :=
  ∃ w : ℕ → ℝ, (∀ j < n, 0 ≤ w j) ∧ ∑ j ∈ range n, w j = 1 ∧
    ∀ k < dim, z k = ∑ j ∈ range n, w j * p j k

/-- Squared length of the first `dim` components. -/
def sqLen (dim : ℕ) (d : ℕ → ℝ) : ℝ := ∑ k ∈ range dim, d k ^ 2

/-- `d` is a shortest vector from `p` to the hull of the nodes. -/
def IsShortest (dim n : ℕ) (nodes : ℕ → ℕ → ℝ) (p d : ℕ → ℝ) : Prop :=
  InHull dim n nodes (fun k => p k + d k) ∧
    ∀ z, InHull dim n nodes z → sqLen dim d ≤ sqLen dim (fun k => z k - p k)

end Verif.Projection
