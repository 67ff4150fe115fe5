import Verif.Model.LoadSchedule
import Verif.Spec.Driver

/-!
Specification for C220: proportional loading.
-/

namespace Verif.Spec

open Verif.ContactProblem

noncomputable section

/-- The displacements of the supports after `i` of `n` load steps. -/
def proportional (D : Supports) (n i : ℕ) (k a : ℕ) : ℝ := i / n * D.disp k a

/-- Dof `d` belongs to support `k` and no other. -/
def OnlyIn (D : Supports) (k d : ℕ) : Prop := k < D.num ∧ D.dofs k d = true ∧ ∀ j < D.num, j ≠ k → D.dofs j d = false

end

end Verif.Spec
