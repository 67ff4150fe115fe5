import Verif.Spec.CoulombWellPosed

/-!
Specification for C205: points with a regular contact state, and Newton's iteration.
-/

namespace Verif.Spec

open Verif.ContactProblem Verif.Packing Verif.Assembly Finset

noncomputable section

variable {G : Type}

/-- Tresca friction: the radius of the friction ball is zero or at least `1e-14` (the threshold in
`d_ball_projection`).  Coulomb friction: there is no friction, or the point is open, or it is closed with a radius
greater than `1e-14` and sticks or slips, but is not at the switch. -/
def ContactPoint.Regular (p : ContactPoint) (law : Law) (gamma : ℝ) (J : ℕ → ℝ) (D : ℕ → ℕ → ℝ) : Prop :=
  match law with
  | .frictionless => True
  | .tresca => p.h / gamma * p.fric = 0 ∨ 1e-14 ≤ p.h / gamma * p.fric
  | .coulomb => p.fric = 0 ∨ p.pressure gamma J D < 0
      ∨ (1e-14 < p.fric * p.pressure gamma J D
        ∧ vecLength p.g (p.trial .coulomb gamma J D) ≠ p.fric * p.pressure gamma J D)

/-- All linked points are regular at displacement `u`. -/
def RegularContact (Y : System G) (t : Tracked G) (law : Law) (gamma : ℝ) (u : ℕ → ℝ) : Prop :=
  ∀ i < Y.numPairs, ∀ e < Y.localFacets i, ∀ cell f, (Y.facets i)[e]? = some (cell, f) → ∀ q < Y.nq,
    0 ≤ Y.map t.cur i (e * Y.nq + q) →
    (pointAt Y t i e cell f q).Regular law gamma (jumpAt Y t.cur i e cell f u q)
      (fun a b => gradAt Y cell f u q a b + (pointAt Y t i e cell f q).grad0 a b)

/-- `u` solves the contact problem with stiffness matrix `K` (below `N`), load `l` and free dofs `F`. -/
def SolvesContact (Y : System G) (s : State G) (N : ℕ) (F : Finset ℕ) (K : ℕ → ℕ → ℝ) (l u : ℕ → ℝ) : Prop :=
  ∃ (s' : State G) (b : Arr ℕ), updateContactData Y.static (Y.du u) s = .ok s' ∧ Y.assembleVector s' 0 = .ok b
    ∧ ∀ d ∈ F, ∑ c ∈ range N, K d c * u c - l d + b d = 0

/-- One step of Newton's method from `u` to `u'`: after `update_contact_data` with `u` the vector and the matrix are
assembled, and `u' - u` solves the linear system. -/
def ContactNewtonStep (Y : System G) (s : State G) (N : ℕ) (F : Finset ℕ) (K : ℕ → ℕ → ℝ) (l u u' : ℕ → ℝ) : Prop :=
  ∃ (s' : State G) (b : Arr ℕ) (A : Arr (ℕ × ℕ)), updateContactData Y.static (Y.du u) s = .ok s'
    ∧ Y.assembleVector s' 0 = .ok b ∧ Y.assembleMatrix s' 0 = .ok A
    ∧ (∀ d, d ∉ F → u' d = u d)
    ∧ ∀ d ∈ F, ∑ c ∈ range N, (K d c + A (d, c)) * (u' c - u c) = -(∑ c ∈ range N, K d c * u c - l d + b d)

/-- Newton's method converges to `us` quadratically from near `us` (constrained dofs keep the values of `us`): the
error after a step is at most a multiple of the square of the error before, and in every sequence of steps `B` times the
error after `k` steps is at most `(1/2)^(2^k)`: the number of correct digits doubles in every step. -/
def NewtonQuadratic (Y : System G) (s : State G) (N : ℕ) (F : Finset ℕ) (K : ℕ → ℕ → ℝ) (l us : ℕ → ℝ) : Prop :=
  ∃ ε > 0, ∃ B > 0,
    (∀ u u' : ℕ → ℝ, (∀ d, d ∉ F → u d = us d) → (∀ d ∈ F, |u d - us d| < ε) →
      ContactNewtonStep Y s N F K l u u' → ∀ d, |u' d - us d| ≤ B * ∑ c ∈ F, (u c - us c) ^ 2)
    ∧ ∀ u : ℕ → ℕ → ℝ, (∀ d, d ∉ F → u 0 d = us d) → (∀ d ∈ F, |u 0 d - us d| < ε) →
      (∀ k, ContactNewtonStep Y s N F K l (u k) (u (k + 1))) → ∀ k d, B * |u k d - us d| ≤ (1 / 2) ^ 2 ^ k

end

end Verif.Spec
