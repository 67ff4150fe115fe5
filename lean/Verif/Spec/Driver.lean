import Verif.Model.Driver
import Verif.Spec.SystemTangent
import Verif.Spec.NewtonStep

/-!
Specification for C139–C141: the equations a load step has to solve.
-/

namespace Verif.Spec

open Verif.ContactProblem Finset

noncomputable section

variable {G : Type}

/-- The increment `x` to the displacement `U` satisfies the equations of a load step up to `tol`: the
prescribed values are attained, and for every virtual displacement `v` which vanishes at prescribed dofs the
virtual work of the bulk at `U + x` (corrected to first order by the difference between prescribed and
attained values) and Nitsche's contact form at `x` balance. -/
def Balanced (Y : System G) (t : Tracked G) (law : Law) (gamma theta : ℝ) (L : LoadCase) (N : ℕ) (U x : ℕ → ℝ)
    (tol : ℝ) : Prop :=
  (∀ d < N, ∀ g, L.bc d = some g → |x d - g| < tol)
  ∧ ∀ v : ℕ → ℝ, (∀ d < N, L.bc d ≠ none → v d = 0) →
    |∑ d ∈ range N, (L.bulk (fun c => U c + x c) d
        + ∑ c ∈ range N, (L.bc c).elim 0 (fun g => L.stiff (fun c => U c + x c) d c * (g - x c))) * v d
      + contactForm Y t law gamma theta x v| ≤ tol * magnitude N v

/-- The data of the contact problem in a load step which starts at displacement `U`; the load step before
started at `Uold`. -/
def stepData (Y : System G) (place : (ℕ → ℝ) → G) (mu lam fric h : Packed) (U Uold : ℕ → ℝ) : Tracked G where
  created := true
  cur := place U
  prev := place Uold
  mu := mu
  lam := lam
  fric := fric
  h := h
  gradU := vals (Y.packGrad U)
  disp := fun _ _ _ => 0
  dispGrad := fun _ _ _ => 0
  dispOpp := fun _ _ _ => 0

/-- Sum of the increments of the first `n` load steps. -/
def totalAfter (Rs : List Report) (n : ℕ) (d : ℕ) : ℝ := ((Rs.take n).map (fun R => R.du d)).sum

/-- The linear solver succeeds for the system `A dx = b` and solves it. -/
def SolvesExactly (Z : Setting G) (A : ℕ × ℕ → ℝ) (b x0 : ℕ → ℝ) : Prop :=
  0 < (Z.linSolve A b x0).2.2 ∧
    ∀ d < Z.numDofs, ∑ c ∈ range Z.numDofs, A (d, c) * (Z.linSolve A b x0).1 c = b d

/-- The bulk is linearly elastic: stiffness matrix `K`, loads `l`. -/
def LinearBulk (L : LoadCase) (N : ℕ) (K : ℕ → ℕ → ℝ) (l : ℕ → ℝ) : Prop :=
  (∀ u, ∀ d < N, L.bulk u d = ∑ c ∈ range N, K d c * u c - l d)
  ∧ ∀ u, ∀ d < N, ∀ c < N, L.stiff u d c = K d c

/-- Dof `d` does not belong to a cell at a contact surface or to a cell linked to one. -/
def AwayFromContact (Y : System G) (t : Tracked G) (d : ℕ) : Prop :=
  ∀ i < Y.numPairs, ∀ e < Y.localFacets i, ∀ cell f, (Y.facets i)[e]? = some (cell, f) →
    (∀ k < Y.nd, ∀ a < Y.gdim, Y.gdim * Y.space.parent cell k + a ≠ d)
    ∧ ∀ q < Y.nq, 0 ≤ Y.map t.cur i (e * Y.nq + q) → ∀ k < Y.nd, ∀ a < Y.gdim,
      Y.gdim * Y.space.parent (Y.space.parentCell (Y.subCell (Y.map t.cur i (e * Y.nq + q)).toNat)) k + a ≠ d

end

end Verif.Spec
