import Verif.Model.Beam
import Verif.Spec.UflDriver

/-!
Specification for C210: an elastic beam, clamped at one end and loaded vertically on its top.
-/

namespace Verif.Spec

open Finset Verif.OneSided Verif.Snes

noncomputable section

open Classical in
/-- The clamp: zero displacement on the facets with value `left`, weakly with Nitsche's method or exactly. The circumradius
counts twice as the size of a cell. There is no obstacle. -/
def clamp (P : Params) (M : Mesh) (Q : Quad) (left : ℤ) : Support where
  stiff := fun _ => 1
  gap := fun _ => 0
  held := if P.nitscheBc then [(Q.dirichlet, fun _ => 0)] else []
  penalty := fun k => P.gamma * P.E / (2 * Q.circ k)
  fixed := fun a => if P.nitscheBc = false ∧ OnFacet M left a then some (fun _ => 0) else none

variable (P : Params) (M : Mesh) (Q : Quad)

/-- Work of the load `rho` per length, directed downwards, on the displacement `v` of the loaded side. -/
def topLoadWork (rho : ℝ) (v : ℕ → ℕ → ℝ) : ℝ := quadSum Q.contact Q.wt (fun k => -rho * nodalValue M v k 1)

/-- `u` is zero where the beam is held exactly, and for every virtual displacement the work of stresses and clamp is
that of the load. -/
def BeamAtRest (left : ℤ) (rho : ℝ) (u : ℕ → ℕ → ℝ) : Prop :=
  Held P M (clamp P M Q left) u ∧ ∀ v, Virtual P (clamp P M Q left) v →
    innerWork P M Q u v + heldWork P M Q (clamp P M Q left) 1 u v = topLoadWork M Q rho v

/-- The energy of stresses and clamp is positive for all displacements but zero. -/
def Clamped (left : ℤ) : Prop := ∀ v, Virtual P (clamp P M Q left) v → (∃ a < M.numNodes, ∃ i < P.dim, v a i ≠ 0) →
  0 < innerWork P M Q v v + heldWork P M Q (clamp P M Q left) 0 v v

/-- Only the displacement zero is without strain and without movement of the clamped end. -/
def NoFreeMotion (left : ℤ) : Prop := ∀ v, Virtual P (clamp P M Q left) v →
  (∀ k ∈ Q.cells, ∀ i < P.dim, ∀ j < P.dim, strain (nodalGrad M v k) i j = 0) →
  (P.nitscheBc = true → ∀ k ∈ Q.dirichlet, ∀ i < P.dim, nodalValue M v k i = 0) →
  ∀ a < M.numNodes, ∀ i < P.dim, v a i = 0

end

end Verif.Spec
