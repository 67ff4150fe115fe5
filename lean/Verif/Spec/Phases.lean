import Verif.Model.Phases
import Verif.Spec.Driver

/-!
Specification for C219: which law, parameters and friction coefficient apply in a load step.
-/

namespace Verif.Spec

open Verif.ContactProblem Finset

noncomputable section

/-- The load steps of a program in order, each with the phase it belongs to and the friction coefficient given
last; `P` is the phase the program is in, `f` the friction coefficient given last. -/
def inEffect (P : Phase) (f : Packed) : List Action → List (Phase × Packed × PhaseStep)
  | [] => []
  | .begin Q :: as => inEffect Q (Q.fric.elim f vals) as
  | .step S :: as => (P, f, S) :: inEffect P f as

/-- The packed data of a phase have the right shapes: one value for each owned facet. -/
def PhaseShaped {G : Type} (S : Static G) (P : Phase) : Prop :=
  ScalarShaped S P.mu ∧ ScalarShaped S P.lam ∧ (∀ f, P.fric = some f → ScalarShaped S f) ∧ ScalarShaped S P.h

end

end Verif.Spec
