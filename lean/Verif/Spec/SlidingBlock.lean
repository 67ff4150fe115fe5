import Verif.Spec.TrescaLimit

/-!
Specification for C226: a block that slides.
-/

namespace Verif.Spec

open Finset Verif.ContactProblem

noncomputable section

variable {G : Type}

/-- What Coulomb's law is applied to at a linked point after the increment `x`: slip of its surface against the opposite one
minus the scaled tangential traction, with the correction for the change of the normal. -/
def slideAt (Y : System G) (t : Tracked G) (gamma : ℝ) (i e cell f : ℕ) (x : ℕ → ℝ) (q a : ℕ) : ℝ :=
  let p := pointAt Y t i e cell f q
  p.slip gamma (jumpAt Y t.cur i e cell f x q) (fun a b => gradAt Y cell f x q a b + p.grad0 a b) a
    - (p.dot p.gap - p.dot (jumpAt Y t.cur i e cell f x q)) * p.tang p.oldNormal a

/-- The bound of Coulomb's law there: friction coefficient times the positive part of the contact pressure. -/
def slideBound (Y : System G) (t : Tracked G) (gamma : ℝ) (i e cell f : ℕ) (x : ℕ → ℝ) (q : ℕ) : ℝ :=
  let p := pointAt Y t i e cell f q
  t.fric i e 0 * max 0 (p.pressure gamma (jumpAt Y t.cur i e cell f x q) (fun a b => gradAt Y cell f x q a b + p.grad0 a b))

/-- The body slides in direction `d` (1 or -1) of axis `n` against the others at all linked points between them: the
bound is exceeded, on surfaces of the body in this direction and on those of the others in the opposite one. -/
def SlidesAlong (Y : System G) (t : Tracked G) (gamma : ℝ) (x : ℕ → ℝ) (B : Finset ℕ) (n : ℕ) (d : ℝ) : Prop :=
  ∀ i < Y.numPairs, ∀ e < Y.localFacets i, ∀ cell f, (Y.facets i)[e]? = some (cell, f) → ∀ q < Y.nq,
    0 ≤ Y.map t.cur i (e * Y.nq + q) →
      (CellIn Y B cell ∧ CellOut Y B (linkedCell Y t.cur i e q) →
        slideBound Y t gamma i e cell f x q < d * slideAt Y t gamma i e cell f x q n)
      ∧ (CellOut Y B cell ∧ CellIn Y B (linkedCell Y t.cur i e q) →
        slideBound Y t gamma i e cell f x q < -d * slideAt Y t gamma i e cell f x q n)

/-- What Tresca's law is applied to: slip minus the scaled tangential traction. -/
def slipAt (Y : System G) (t : Tracked G) (gamma : ℝ) (i e cell f : ℕ) (x : ℕ → ℝ) (q a : ℕ) : ℝ :=
  (pointAt Y t i e cell f q).slip gamma (jumpAt Y t.cur i e cell f x q)
    (fun a b => gradAt Y cell f x q a b + (pointAt Y t i e cell f q).grad0 a b) a

/-- As `SlidesAlong` for Tresca's law, the bound of which is scaled like the traction. -/
def SlidesTresca (Y : System G) (t : Tracked G) (gamma : ℝ) (x : ℕ → ℝ) (B : Finset ℕ) (n : ℕ) (d : ℝ) : Prop :=
  ∀ i < Y.numPairs, ∀ e < Y.localFacets i, ∀ cell f, (Y.facets i)[e]? = some (cell, f) → ∀ q < Y.nq,
    0 ≤ Y.map t.cur i (e * Y.nq + q) →
      (CellIn Y B cell ∧ CellOut Y B (linkedCell Y t.cur i e q) →
        t.h i e 0 / gamma * t.fric i e 0 < d * slipAt Y t gamma i e cell f x q n)
      ∧ (CellOut Y B cell ∧ CellIn Y B (linkedCell Y t.cur i e q) →
        t.h i e 0 / gamma * t.fric i e 0 < -d * slipAt Y t gamma i e cell f x q n)

/-- The friction coefficient is `mu` at all linked points, weights are whatever they are. -/
def FrictionIs (Y : System G) (t : Tracked G) (mu : ℝ) : Prop :=
  ∀ i < Y.numPairs, ∀ e < Y.localFacets i, ∀ q < Y.nq, 0 ≤ Y.map t.cur i (e * Y.nq + q) → t.fric i e 0 = mu

end

end Verif.Spec
