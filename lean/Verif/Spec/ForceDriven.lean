import Verif.Model.ForceDriven
import Verif.Spec.Phases

/-!
Specification for C221: tractions.
-/

namespace Verif.Spec

open Verif.ContactProblem

noncomputable section

/-- Only dofs of the top have basis functions which do not vanish there, and the dofs the second phase holds are
the vertical ones of the top. -/
structure TopDofs (D : CylinderDofs) (w : ℕ → ℝ) : Prop where
  loaded : ∀ d, w d ≠ 0 → D.top d = true
  held : ∀ d, D.constraint d = true ↔ D.top d = true ∧ D.comp d ≠ 0

/-- The equations of a body under the traction `(tx, ty)`. -/
def underTraction (D : CylinderDofs) (inner : (ℕ → ℝ) → ℕ → ℝ) (w : ℕ → ℝ) (tx ty : ℝ) (u : ℕ → ℝ) (d : ℕ) : ℝ :=
  inner u d - (if D.comp d = 0 then tx else ty) * w d

end

end Verif.Spec
