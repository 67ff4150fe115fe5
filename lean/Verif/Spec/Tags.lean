import Verif.Spec.ContactMeshes
import Verif.Model.Tags

/-!
Specification for C212: what a user expects of the parts of the boundary of two bodies that a demo drives, holds and
puts into contact.
-/

namespace Verif.Spec.Tags

open Verif.ContactMeshes Verif.Tags

/-- The points of some curves. -/
def part (cs : List Curve) : Set (ℝ × ℝ) := {p | ∃ c ∈ cs, p ∈ points c}

/-- The four parts of the boundary that the values name in a marker are those of an upper body `A` and a lower body `B`
that are driven against each other. -/
structure Sensible (A B : Set (ℝ × ℝ)) (m : Marker) (v : Values) : Prop where
  /-- The first two are parts of the upper body, the others of the lower one. -/
  upper : part (find m v.driven) ⊆ A ∧ part (find m v.contact1) ⊆ A
  lower : part (find m v.contact2) ⊆ B ∧ part (find m v.held) ⊆ B
  /-- The contact surfaces contain the points where the bodies are closest. -/
  contact : ∃ p ∈ part (find m v.contact1), ∃ q ∈ part (find m v.contact2), ∀ x ∈ A, ∀ y ∈ B, apart p q ≤ apart x y
  /-- The upper body is driven at its highest point and nowhere below its contact surface. -/
  top : ∃ p ∈ part (find m v.driven), ∀ x ∈ A, x.2 ≤ p.2
  above : ∀ p ∈ part (find m v.driven), ∀ q ∈ part (find m v.contact1), q.2 ≤ p.2
  /-- The lower body is held at its lowest point and nowhere above its contact surface. -/
  bottom : ∃ p ∈ part (find m v.held), ∀ x ∈ B, p.2 ≤ x.2
  below : ∀ p ∈ part (find m v.held), ∀ q ∈ part (find m v.contact2), p.2 ≤ q.2

end Verif.Spec.Tags
