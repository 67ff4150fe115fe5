import Verif.Spec.SystemTangent

/-!
Specification for C137: friction laws with friction coefficient zero.
-/

namespace Verif.Spec

open Verif.ContactProblem Finset

noncomputable section

variable {G : Type}

/-- The same call, with another law given to `generate_contact_data`. -/
def withLaw (law : Law) : Op G → Op G
  | .generate a => .generate { a with law := law }
  | op => op

/-- The friction coefficient (Coulomb) or yield stress (Tresca) is zero. -/
def ZeroFriction (Y : System G) (t : Tracked G) : Prop :=
  ∀ i < Y.numPairs, ∀ e < Y.localFacets i, t.fric i e 0 = 0

/-- `∫ θ h / (2 γ) σ_t(u) · σ_t(v)`, as a quadrature sum over the linked points of the owned facets. -/
def tangentialTerm (Y : System G) (t : Tracked G) (gamma theta : ℝ) (u v : ℕ → ℝ) : ℝ :=
  ∑ i ∈ range Y.numPairs, ∑ e ∈ range (Y.localFacets i),
    ((Y.facets i)[e]?).elim 0 (fun p => ∑ q ∈ range Y.nq,
      if 0 ≤ Y.map t.cur i (e * Y.nq + q) then
        weightAt Y p.1 p.2 q * (1 / 2 * theta * (t.h i e 0 / gamma) * ∑ a ∈ range Y.gdim,
          (pointAt Y t i e p.1 p.2 q).tang ((pointAt Y t i e p.1 p.2 q).trac
            (fun a b => gradAt Y p.1 p.2 u q a b + (pointAt Y t i e p.1 p.2 q).grad0 a b)) a
          * (pointAt Y t i e p.1 p.2 q).tang ((pointAt Y t i e p.1 p.2 q).trac (gradAt Y p.1 p.2 v q)) a)
      else 0)

end

end Verif.Spec
