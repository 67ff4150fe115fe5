import Verif.Model.Phases
import Verif.Model.Hertz

/-!
The load steps of `python/demos/hertz_contact/demo_hertzian_contact.py:140-142`, `200-302`, `365-378`, `487-510`: a disk or
ball (or half of one) is pressed on a block by a body force or a traction.

Not modelled: output, near null space, ghost values (one process).
-/

namespace Verif.Hertz

open Verif.ContactProblem

noncomputable section

/-- `demo_hertzian_contact.py:375-378`: the compiled residual with last components `-f` of the force (body force or
traction): `inner` is the form without it, `m d` the integral of the basis function of dof `d` over where it acts, `g`
the dimension. -/
def loadedBulk (g : ℕ) (inner : (ℕ → ℝ) → ℕ → ℝ) (m : ℕ → ℝ) (f : ℝ) (u : ℕ → ℝ) (d : ℕ) : ℝ :=
  inner u d - (if d % g = g - 1 then -f else 0) * m d

/-- `demo_hertzian_contact.py:209-214`, `287-293`: all prescribed values are zero; `pinned` are the dofs of the boundary
conditions. -/
def hertzBc (pinned : ℕ → Bool) (d : ℕ) : Option ℝ := if pinned d then some 0 else none

/-- `demo_hertzian_contact.py:402-421`, `487-510`: `generate_contact_data`, the initial guess and `steps = 4` load steps. -/
def hertzProgram (threed : Bool) (pb : Problem) (R load : ℝ) (inner : (ℕ → ℝ) → ℕ → ℝ) (stiff : (ℕ → ℝ) → ℕ → ℕ → ℝ)
    (m : ℕ → ℝ) (pinned : ℕ → Bool) (lin : (ℕ × ℕ → ℝ) → (ℕ → ℝ) → (ℕ → ℝ) → (ℕ → ℝ) × ℕ × ℤ) (P : Phase) : List Action :=
  let steps : ℕ := 4
  .begin P :: (List.range steps).map (fun i => .step ⟨fun _ => none,
    ⟨loadedBulk (if threed then 3 else 2) inner m (density threed pb R load steps i), stiff, hertzBc pinned⟩, lin, 0.1⟩)

end

end Verif.Hertz
