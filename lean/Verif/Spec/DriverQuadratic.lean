import Verif.Spec.Driver
import Verif.Spec.Quadratic

/-!
Specification for C206: the Newton solver of a load step, started near a solution.
-/

namespace Verif.Spec

open Verif.ContactProblem Verif.Packing Verif.Assembly Finset

noncomputable section

variable {G : Type}

/-- The linear solver finds a solution of every system which has one. -/
def SolvesSolvable (Z : Setting G) : Prop :=
  ∀ (A : ℕ × ℕ → ℝ) (b x0 : ℕ → ℝ), (∃ dx : ℕ → ℝ, ∀ d < Z.numDofs, ∑ k ∈ range Z.numDofs, A (d, k) * dx k = b d) →
    SolvesExactly Z A b x0

/-- The Newton solver of a load step converges from near `us`. With tolerances greater than `Q * (1/2)^(2^n)`,
`solve` converges in at most `n` iterations. There is one residual evaluation per iteration: no step is shortened. When it
ends after `k` iterations, `B` times the error of each dof is at most `(1/2)^(2^k)`. -/
def SolverConvergesNear (Y : System G) (ops : List (Op G)) (g : G) (Z : Setting G) (L : LoadCase) (u us : ℕ → ℝ) : Prop :=
  ∃ ε > 0, ∃ Q > 0, ∃ B > 0, ∀ (rank0 : Bool) (s : Newton.St (ℕ → ℝ) (ℕ → ℝ) (State G)),
    s.coeffs = history Y.static ops (init Y.static g) → s.relax ≠ none → s.opts.crit = .residual →
    (∀ d < Z.numDofs, |s.x d - us d| < ε) → (∃ d < Z.numDofs, s.x d ≠ us d) →
    ∀ n, 0 < n → n ≤ s.opts.maxIt → Q * (1 / 2) ^ 2 ^ n < s.opts.rtol → Q * (1 / 2) ^ 2 ^ n < s.opts.atol →
    ∃ s' k, Newton.solve (driverProblem Y Z L u) rank0 .function s = (s', .ok (k, true)) ∧ k ≤ n
      ∧ s'.nRes = s.nRes + 1 + k ∧ s'.nLin = s.nLin + k
      ∧ ∀ d < Z.numDofs, B * |s'.x d - us d| ≤ (1 / 2) ^ 2 ^ k

end

end Verif.Spec
