import Verif.Spec.ContactMeshes
import Verif.Model.Wedges

/-!
Specification for C211: traction, pressure and Coulomb friction at a point of a contact surface in the plane, and the
normal of a straight piece of the boundary of a body.
-/

namespace Verif.Spec.Wedges

open Verif.ContactMeshes

/-- Pressure of the traction `τ` on a surface with outward unit normal `n`. -/
def pressure (n τ : ℕ → ℝ) : ℝ := -(τ 0 * n 0 + τ 1 * n 1)

/-- Tangential part of the traction. -/
def tangential (n τ : ℕ → ℝ) (i : ℕ) : ℝ := τ i + pressure n τ * n i

/-- Coulomb's law: no tension, and the tangential traction is at most the pressure times the coefficient. -/
def Coulomb (fric : ℝ) (n τ : ℕ → ℝ) : Prop :=
  0 ≤ pressure n τ ∧ tangential n τ 0 ^ 2 + tangential n τ 1 ^ 2 ≤ (fric * pressure n τ) ^ 2

/-- The traction of a surface that slides in direction `d`: full friction against the motion. -/
def Slides (fric : ℝ) (n τ d : ℕ → ℝ) : Prop := ∀ i < 2, tangential n τ i = -(fric * pressure n τ) * d i

/-- Unit vector along a slope that rises by `t` per unit length to the right; to the right if `right`. -/
structure Along (t : ℝ) (right : Bool) (d : ℕ → ℝ) : Prop where
  unit : d 0 ^ 2 + d 1 ^ 2 = 1
  slope : d 1 = t * d 0
  sense : if right then 0 < d 0 else d 0 < 0

/-- `n` is the outward unit normal of `body` on the straight piece `c` of its boundary. -/
def OutwardNormal (body : List Curve) (c : Curve) (n : ℕ → ℝ) : Prop :=
  match c with
  | .line a b => a ≠ b ∧ n 0 ^ 2 + n 1 ^ 2 = 1 ∧ n 0 * (b.1 - a.1) + n 1 * (b.2 - a.2) = 0 ∧
      ∀ x ∈ region body, n 0 * (x.1 - a.1) + n 1 * (x.2 - a.2) ≤ 0
  | .arc _ _ _ => False

/-- Data of quadrature points of a mesh of the wedges: weights are not negative, and a point on a facet with tag 7 or 5
has the outward normal, to the upper or lower wedge, of a curve of the physical group with that tag. -/
structure Meshed (t res : ℝ) (S : Verif.Wedges.Surfaces) : Prop where
  weight : ∀ k, 0 ≤ S.wt k
  upper : ∀ r < S.size, ∀ k ∈ S.pts r 7, ∃ cs, (1, 7, cs) ∈ Verif.Tags.wedgeGroups t res ∧
    ∃ c ∈ cs, OutwardNormal (slidingWedges t res).2 c (S.n k)
  lower : ∀ r < S.size, ∀ k ∈ S.pts r 5, ∃ cs, (1, 5, cs) ∈ Verif.Tags.wedgeGroups t res ∧
    ∃ c ∈ cs, OutwardNormal (slidingWedges t res).1 c (S.n k)

/-- `k` is a point of a facet with the tag, on some process. -/
def IsPoint (S : Verif.Wedges.Surfaces) (tag k : ℕ) : Prop := ∃ r < S.size, k ∈ S.pts r tag

/-- The force on the surface presses somewhere. -/
def Pressed (S : Verif.Wedges.Surfaces) (τ : ℕ → ℕ → ℝ) (tag : ℕ) : Prop :=
  ∃ k, IsPoint S tag k ∧ 0 < S.wt k ∧ 0 < pressure (S.n k) (τ k)

/-- The whole surface slides: full friction at every point that counts. -/
def Sliding (fric t : ℝ) (right : Bool) (S : Verif.Wedges.Surfaces) (τ : ℕ → ℕ → ℝ) (tag : ℕ) : Prop :=
  ∀ k, IsPoint S tag k → 0 < S.wt k → ∀ d, Along t right d → Slides fric (S.n k) (τ k) d

end Verif.Spec.Wedges
