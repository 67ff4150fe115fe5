import Verif.Spec.Phases
import Verif.Spec.Reactions

/-!
Specification for C224: a body which touches others along a flat interface.
-/

namespace Verif.Spec

open Finset Verif.ContactProblem

noncomputable section

variable {G : Type}

/-- All dofs of a cell belong to `B`. -/
def CellIn (Y : System G) (B : Finset ℕ) (cell : ℕ) : Prop :=
  ∀ k < Y.nd, ∀ a < Y.gdim, Y.gdim * Y.space.parent cell k + a ∈ B

/-- None of them does. -/
def CellOut (Y : System G) (B : Finset ℕ) (cell : ℕ) : Prop :=
  ∀ k < Y.nd, ∀ a < Y.gdim, Y.gdim * Y.space.parent cell k + a ∉ B

/-- The cell a linked quadrature point is in contact with. -/
def linkedCell (Y : System G) (g : G) (i e q : ℕ) : ℕ :=
  Y.space.parentCell (Y.subCell (Y.map g i (e * Y.nq + q)).toNat)

/-- The body with dofs `B` touches others only across interfaces perpendicular to axis `m`, which lie on the side `s` (1 or
-1) of it: the contact normals point to that side from `B`, and back from the others. -/
structure FlatContact (Y : System G) (t : Tracked G) (B : Finset ℕ) (m : ℕ) (s : ℝ) : Prop where
  axis : m < Y.gdim
  side : s = 1 ∨ s = -1
  point : ∀ i < Y.numPairs, ∀ e < Y.localFacets i, ∀ cell f, (Y.facets i)[e]? = some (cell, f) → ∀ q < Y.nq,
    0 ≤ Y.map t.cur i (e * Y.nq + q) →
      (CellIn Y B cell ∧ CellOut Y B (linkedCell Y t.cur i e q)
          ∧ ∀ a < Y.gdim, contactNormalAt Y t.cur i e q a = if a = m then s else 0)
      ∨ (CellOut Y B cell ∧ CellIn Y B (linkedCell Y t.cur i e q)
          ∧ ∀ a < Y.gdim, contactNormalAt Y t.cur i e q a = if a = m then -s else 0)
      ∨ (CellIn Y B cell ∧ CellIn Y B (linkedCell Y t.cur i e q))
      ∨ (CellOut Y B cell ∧ CellOut Y B (linkedCell Y t.cur i e q))

/-- Weights of linked points are not negative, cell sizes are positive, friction coefficients lie between 0 and `mu`. -/
def FrictionBelow (Y : System G) (t : Tracked G) (mu : ℝ) : Prop :=
  ∀ i < Y.numPairs, ∀ e < Y.localFacets i, ∀ cell f, (Y.facets i)[e]? = some (cell, f) → ∀ q < Y.nq,
    0 ≤ Y.map t.cur i (e * Y.nq + q) → 0 ≤ weightAt Y cell f q ∧ 0 < t.h i e 0 ∧ 0 ≤ t.fric i e 0 ∧ t.fric i e 0 ≤ mu

end

end Verif.Spec
