import Verif.Model.ThermoDemo
import Verif.Spec.TieLocal

/-!
Specification for the demos with time steps (C166–C168): implicit Euler for the heat equation in tied bodies, and the static
equations of thermo-elasticity.
-/

namespace Verif.Spec

open Verif.TieData Finset

noncomputable section

/-- The form with matrix `K` of the functions with dofs `u` (tested with `v`), for `N` dofs of `v` and `n` dofs of `u`. -/
def formOf (N n : ℕ) (K : ℕ → ℕ → ℝ) (u v : ℕ → ℝ) : ℝ := ∑ d ∈ range N, ∑ c ∈ range n, v d * K d c * u c

/-- `x` solves the linear system. -/
def Solves (N : ℕ) (A : ℕ × ℕ → ℝ) (x b : ℕ → ℝ) : Prop := ∀ d < N, ∑ c ∈ range N, A (d, c) * x c = b d

/-- A linear solver which solves all systems with an invertible matrix. -/
def LinearSolver (N : ℕ) (solve : (ℕ × ℕ → ℝ) → (ℕ → ℝ) → ℕ → ℝ) : Prop :=
  ∀ A, (∀ b, ∃ x, Solves N A x b) → ∀ b, Solves N A (solve A b) b

/-- `v` is an admissible test function: zero at prescribed dofs. -/
def Admissible (N : ℕ) (bc : ℕ → Option ℝ) (v : ℕ → ℝ) : Prop := ∀ d < N, bc d ≠ none → v d = 0

/-- `x` has the prescribed values. -/
def HasValues (N : ℕ) (bc : ℕ → Option ℝ) (x : ℕ → ℝ) : Prop := ∀ d < N, ∀ g, bc d = some g → x d = g

/-- A quadratic form is positive on test functions that are not zero. -/
def PositiveOn (N : ℕ) (bc : ℕ → Option ℝ) (a : (ℕ → ℝ) → (ℕ → ℝ) → ℝ) : Prop :=
  ∀ v, Admissible N bc v → (∃ d < N, v d ≠ 0) → 0 < a v v

/-- No prescribed dof belongs to a cell at a tied point. -/
def AwayFromTie (M : TieMesh) (E : TieElement) (N : ℕ) (bc : ℕ → Option ℝ) : Prop :=
  ∀ d < N, bc d ≠ none → ∀ c, ¬TiedDofs M E d c ∧ ¬TiedDofs M E c d

/-- Meshes, spaces and numbers of dofs fit together. -/
structure DemoValid (D : Demo) : Prop where
  mesh : TieMesh.Valid D.M
  heat : TieElement.Valid D.M D.Q
  scalar : D.Q.bs = 1
  material : D.EQ.bs = 1
  heatDofs : TieDofsBelow D.M D.Q D.H.numDofs

/-- The same for the displacement. -/
structure DemoValidU (D : Demo) : Prop where
  disp : TieElement.Valid D.M D.V
  vector : D.V.bs = D.M.gdim
  dispDofs : TieDofsBelow D.M D.V D.L.numDofs

/-- Heat conduction in and between the bodies. -/
def conduction (D : Demo) (T v : ℕ → ℝ) : ℝ :=
  formOf D.H.numDofs D.H.numDofs D.H.stiff T v + heatTie D.M D.Q D.EQ D.mat D.gamma D.theta T v

/-- Heat content of `T`, tested with `v`. -/
def content (D : Demo) (T v : ℕ → ℝ) : ℝ := formOf D.H.numDofs D.H.numDofs D.H.mass T v

/-- `T1` is the temperature after a step of implicit Euler from `T0`, with heat source `r`. -/
def Euler (D : Demo) (r : (ℕ → ℝ) → ℝ) (T0 T1 : ℕ → ℝ) : Prop :=
  HasValues D.H.numDofs D.H.bc T1
  ∧ ∀ v, Admissible D.H.numDofs D.H.bc v → content D T1 v - content D T0 v + conduction D T1 v = r v

/-- The heat source from the vector of the tie: it belongs to the initial temperature in all time steps. -/
def tieSource (D : Demo) (v : ℕ → ℝ) : ℝ :=
  if D.addTie ∧ D.withT then heatTie D.M D.Q D.EQ D.mat D.gamma D.theta D.start v else 0

/-- The system of a time step is solvable: heat content plus conduction is positive. -/
def HeatPositive (D : Demo) : Prop :=
  PositiveOn D.H.numDofs D.H.bc (fun T v => content D T v + conduction D T v)

/-- Stiffness of the bodies and the tie. -/
def elasticity (D : Demo) (u v : ℕ → ℝ) : ℝ :=
  formOf D.L.numDofs D.L.numDofs D.L.stiff u v + elasticTie D.M D.V D.EQ D.mat D.gammaE D.theta u v

/-- The displacement is in equilibrium with the thermal stress of `T`, in time step `k`. -/
def Equilibrium (D : Demo) (k : ℕ) (T u : ℕ → ℝ) : Prop :=
  HasValues D.L.numDofs (D.L.bc k) u
  ∧ ∀ v, Admissible D.L.numDofs (D.L.bc k) v →
    elasticity D u v + thermalTie D.M D.V D.EQ D.Q D.mat T v = formOf D.L.numDofs D.H.numDofs D.L.thermal T v

end

end Verif.Spec
