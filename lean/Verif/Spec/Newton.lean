import Verif.Model.Newton

/-!
What a Newton run is, independently of how the loops are written: a chain of damped Newton steps.
-/

namespace Verif.Newton.Spec

variable {V B M C : Type} [AddCommGroup V] [Module ℝ V]

/-- The residual and coefficients held in `s` belong to the iterate held in `s`. -/
def InSync (P : Problem V B M C) (s : St V B C) : Prop :=
  s.b = P.residual s.x s.coeffs

/-- `s'` arises from `s` by one damped Newton step with damping factor `2^-k`. -/
def NewtonStep (P : Problem V B M C) (s s' : St V B C) : Prop :=
  ∃ (dx : V) (its : ℕ) (reason : ℤ) (k : ℕ) (c : C),
    P.linSolve (P.jacobian s.x s.coeffs) s.b (s.dx.getD 0) = (dx, its, reason) ∧
    0 < reason ∧
    k ≤ 6 ∧
    s'.x = P.post (s.x - ((1 / 2 : ℝ) ^ k) • dx) ∧
    s'.coeffs = P.coefficients (s.x - ((1 / 2 : ℝ) ^ k) • dx) c ∧
    s'.b = P.residual s'.x s'.coeffs ∧
    (P.normB s'.b ≤ P.normB s.b ∨ k = 6) ∧
    s'.relax = some ((1 / 2 : ℝ) ^ k) ∧
    s'.dx = some dx ∧
    s'.nRes = s.nRes + 1 + k ∧
    s'.nLin = s.nLin + 1 ∧
    s'.iteration = s.iteration + 1 ∧
    s'.krylov = s.krylov + its ∧
    s'.opts = s.opts ∧
    s'.initialResidual = (if s.iteration = 0 then P.normV dx else s.initialResidual)

/-- The tolerances hold in `s`: the criterion's norm is below `atol`, and its ratio to
`initialResidual` (which must be nonzero) below `rtol`. The incremental criterion needs at least
two iterations. -/
def Accepts (P : Problem V B M C) (s : St V B C) : Prop :=
  match s.opts.crit with
  | .residual => s.initialResidual ≠ 0 ∧ P.normB s.b / s.initialResidual < s.opts.rtol ∧
      P.normB s.b < s.opts.atol
  | .incremental => 2 ≤ s.iteration ∧ s.initialResidual ≠ 0 ∧
      P.normV (s.dx.getD 0) / s.initialResidual < s.opts.rtol ∧
      P.normV (s.dx.getD 0) < s.opts.atol

/-- A chain of `n` damped Newton steps, each started from a state that was not accepted. -/
inductive Chain (P : Problem V B M C) : ℕ → St V B C → St V B C → Prop
  | nil (s) : Chain P 0 s s
  | cons {n s s' s''} : ¬ Accepts P s → NewtonStep P s s' → Chain P n s' s'' →
      Chain P (n + 1) s s''

/-- State in which the loop is entered: counters reset, coefficients and residual of the initial
guess. -/
def Started (P : Problem V B M C) (s s0 : St V B C) : Prop :=
  s0.x = P.pre s.x ∧ s0.coeffs = P.coefficients s.x s.coeffs ∧
  s0.b = P.residual s0.x s0.coeffs ∧ s0.iteration = 0 ∧ s0.krylov = 0 ∧
  s0.opts = s.opts ∧ s0.initialResidual = s.initialResidual ∧ s0.dx = s.dx ∧
  s0.relax = s.relax ∧ s0.nRes = s.nRes + 1 ∧ s0.nLin = s.nLin

/-- Every Krylov solve succeeds. -/
def LinearSolverOk (P : Problem V B M C) : Prop := ∀ A b d, 0 < (P.linSolve A b d).2.2

end Verif.Newton.Spec
