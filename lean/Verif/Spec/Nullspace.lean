import Mathlib.Data.Real.Basic
import Mathlib.Algebra.BigOperators.Group.Finset.Basic

/-! Infinitesimal rigid body motions, independent of the model. -/

namespace Verif.Spec

open Finset

/-- An affine vector field `x ↦ a + W x`. -/
structure Motion where
  a : ℕ → ℝ
  W : ℕ → ℕ → ℝ

/-- Component `i` of the field at `x` in `d` dimensions. -/
def Motion.at' (d : ℕ) (M : Motion) (x : ℕ → ℝ) (i : ℕ) : ℝ := M.a i + ∑ j ∈ range d, M.W i j * x j

/-- Infinitesimal rigid body motion in `d` dimensions: the linear part is skew symmetric. -/
def Motion.Rigid (d : ℕ) (M : Motion) : Prop := ∀ i < d, ∀ j < d, M.W i j = -M.W j i

/-- Number of independent rigid body motions in `d` dimensions. -/
def rigidDim (d : ℕ) : ℕ := d * (d + 1) / 2

/-- A cell with local nodes `nodes` at coordinates `x` and derivatives `D k l` of its `k`-th basis
function in direction `l` at some point: the derivatives of affine functions are exact. -/
def ReproducesAffine (d : ℕ) (nodes : List ℕ) (x : ℕ → ℕ → ℝ) (D : ℕ → ℕ → ℝ) : Prop :=
  (∀ l < d, ∑ k ∈ range nodes.length, D k l = 0) ∧
  ∀ l < d, ∀ i < d, ∑ k ∈ range nodes.length, D k l * x (nodes.getD k 0) i = if i = l then 1 else 0

/-- Gradient `∂ u_i / ∂ x_l` in the cell of the discrete field with block values
`u (d * node + i)`. -/
def cellGradient (d : ℕ) (nodes : List ℕ) (D : ℕ → ℕ → ℝ) (u : ℕ → ℝ) (i l : ℕ) : ℝ :=
  ∑ k ∈ range nodes.length, D k l * u (d * nodes.getD k 0 + i)

/-- `node` belongs to a cell with tag `t`. -/
def InBody (cellDofs : ℕ → List ℕ) (mt : List (ℕ × ℤ)) (t : ℤ) (node : ℕ) : Prop :=
  ∃ c, (c, t) ∈ mt ∧ node ∈ cellDofs c

end Verif.Spec
