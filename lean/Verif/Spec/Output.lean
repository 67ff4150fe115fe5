import Mathlib.Analysis.Real.Sqrt
import Mathlib.Algebra.BigOperators.Group.Finset.Basic

/-! Splitting of a traction into normal and tangential part. -/

namespace Verif.Spec

open Finset

noncomputable section

/-- Component of the traction `t` in the direction `n`. -/
def normalPart (d : ℕ) (t n : ℕ → ℝ) : ℝ := ∑ j ∈ range d, t j * n j

/-- Euclidean size of what is left of `t` when its normal component is taken away. -/
def tangentialSize (d : ℕ) (t n : ℕ → ℝ) : ℝ :=
  Real.sqrt (∑ j ∈ range d, (t j - normalPart d t n * n j) ^ 2)

end

end Verif.Spec
