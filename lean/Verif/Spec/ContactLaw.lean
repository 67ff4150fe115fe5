import Mathlib.Analysis.Real.Sqrt
import Mathlib.Algebra.BigOperators.Group.Finset.Basic

/-! The physical contact and friction laws at a point, for C97 and C98. -/

namespace Verif.Spec

open Finset

noncomputable section

/-- Signorini's conditions for the normal jump `un` (positive: approach), the gap `g` and the normal
traction `sn`: no penetration, no adhesion, no pressure across an open gap. -/
def Signorini (un g sn : ℝ) : Prop := un ≤ g ∧ sn ≤ 0 ∧ (un - g) * sn = 0

/-- Euclidean length of the first `d` components. -/
def size (d : ℕ) (x : ℕ → ℝ) : ℝ := Real.sqrt (∑ a ∈ range d, x a ^ 2)

/-- Friction with bound `α` on the tangential traction `s`: the bound holds, and where there is slip `x`
the traction has the size of the bound and opposes the slip. -/
def FrictionLaw (d : ℕ) (α : ℝ) (s x : ℕ → ℝ) : Prop :=
  size d s ≤ α ∧ ((∃ a < d, x a ≠ 0) → ∀ a < d, s a = -α * (x a / size d x))

end

end Verif.Spec
