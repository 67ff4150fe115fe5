import Verif.Model.TieDemos
import Verif.Spec.ThermoDemo

/-!
Specification for the static demos of tied bodies (C193–C195).
-/

namespace Verif.Spec

open Verif.TieData Finset

noncomputable section

/-- Mesh, spaces and number of dofs fit together, for elasticity or heat conduction. -/
structure TieDemoValid (D : TieDemo) : Prop where
  mesh : TieMesh.Valid D.M
  space : TieElement.Valid D.M D.V
  material : D.EQ.bs = 1
  dofs : TieDofsBelow D.M D.V D.numDofs
  problem : D.p = .elasticity ∧ D.V.bs = D.M.gdim ∨ D.p = .poisson ∧ D.V.bs = 1

/-- Nitsche's form of the tie. -/
def tieForm (D : TieDemo) (u v : ℕ → ℝ) : ℝ :=
  if D.p = .poisson then heatTie D.M D.V D.EQ D.mat D.gamma D.theta u v
  else elasticTie D.M D.V D.EQ D.mat D.gamma D.theta u v

/-- Work of the bodies and the tie. -/
def tiedWork (D : TieDemo) (u v : ℕ → ℝ) : ℝ := formOf D.numDofs D.numDofs D.stiff u v + tieForm D u v

/-- Work of the load. -/
def loadWork (D : TieDemo) (v : ℕ → ℝ) : ℝ := ∑ d ∈ range D.numDofs, D.load d * v d

/-- `u` has the prescribed values and balances `r`. -/
def InBalance (D : TieDemo) (r : (ℕ → ℝ) → ℝ) (u : ℕ → ℝ) : Prop :=
  HasValues D.numDofs D.bc u ∧ ∀ v, Admissible D.numDofs D.bc v → tiedWork D u v = r v

/-- The demo with the opposite prescribed values. -/
def oppositeValues (D : TieDemo) : TieDemo := { D with bc := fun d => (D.bc d).map fun g => -g }

/-- Energy of the bodies and the tie, less the work of `r`. -/
def tiedEnergy (D : TieDemo) (r : (ℕ → ℝ) → ℝ) (u : ℕ → ℝ) : ℝ := tiedWork D u u / 2 - r u

/-- `u` balances `r` up to the tolerance: it misses the prescribed values and the balance of forces by less than `tol` (square root
of the sum of squares; `f` are the forces on the free dofs). -/
def NearlyInBalance (D : TieDemo) (r : (ℕ → ℝ) → ℝ) (tol : ℝ) (u : ℕ → ℝ) : Prop :=
  ∃ f : ℕ → ℝ, Real.sqrt (∑ d ∈ range D.numDofs, f d ^ 2) < tol
    ∧ (∀ d < D.numDofs, ∀ g, D.bc d = some g → |u d - g| = |f d|)
    ∧ ∀ w, HasValues D.numDofs D.bc w → (∀ d < D.numDofs, D.bc d = none → w d = u d) →
      ∀ v, Admissible D.numDofs D.bc v → tiedWork D w v - r v = ∑ d ∈ range D.numDofs, f d * v d

end

end Verif.Spec
