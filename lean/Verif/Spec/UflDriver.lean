import Verif.Model.UflDriver
import Verif.Spec.Snes

/-!
Specification for `nitsche_ufl` and `nitsche_rigid_surface`: the weak form of a linear elastic body that is held at
some places and pressed against an obstacle below it, for displacements given by node and component.
-/

namespace Verif.Spec

open Finset Verif.OneSided Verif.Snes Verif.UflDriver

noncomputable section

/-- Displacement at point `k`. -/
def nodalValue (M : Mesh) (u : ℕ → ℕ → ℝ) (k i : ℕ) : ℝ := ∑ a ∈ range M.numNodes, u a i * M.phi k a

/-- The obstacle and the places where the body is held: `stiff k` is the Nitsche parameter and `gap k` the height
above the obstacle at a contact point, `held` are points and displacement of the places where the body is held
weakly, with penalty `penalty k`, and `fixed a` is the displacement of node `a` if it is held exactly. -/
structure Support where
  stiff : ℕ → ℝ
  gap : ℕ → ℝ
  held : List (List ℕ × (ℕ → ℝ))
  penalty : ℕ → ℝ
  fixed : ℕ → Option (ℕ → ℝ)

/-- The prescribed displacement: `vertical_displacement` along the last axis. -/
def pushed (P : Params) (i : ℕ) : ℝ := if i + 1 = P.dim then P.disp else 0

open Classical in
/-- A body above the plane at height `-plane_loc`, with displacement prescribed on the facets with value `top`, weakly
for `nitsche_bc`. -/
def abovePlane (P : Params) (M : Mesh) (Q : Quad) (top : ℤ) : Support where
  stiff := fun k => P.gamma * P.E / Q.diam k
  gap := fun k => Q.x k (P.dim - 1) - -P.planeLoc
  held := if P.nitscheBc then [(Q.dirichlet, pushed P)] else []
  penalty := fun k => P.gamma * P.E / Q.diam k ^ 2
  fixed := fun a => if P.nitscheBc = false ∧ OnFacet M top a then some (pushed P) else none

open Classical in
/-- A body above a surface, with displacement prescribed on the facets with value `top` and zero on those with value
`rigid`. -/
def aboveSurface (P : Params) (M : Mesh) (Q : Quad) (top rigid : ℤ) : Support where
  stiff := fun k => P.gamma * P.E / Q.circ k
  gap := fun k => approach P.dim (Q.gap k)
  held := if P.nitscheBc then [(Q.dirichlet, pushed P), (Q.rigid, fun _ => 0)] else []
  penalty := fun k => P.gamma * P.E / Q.circ k
  fixed := fun a => if P.nitscheBc then none else if OnFacet M rigid a then some (fun _ => 0)
    else if OnFacet M top a then some (pushed P) else none

variable (P : Params) (M : Mesh) (Q : Quad) (S : Support)

/-- Traction of `u` on the facet with normal `Q.n k` at point `k`. -/
def tractionAt (u : ℕ → ℕ → ℝ) (k : ℕ) : ℕ → ℝ :=
  traction P.dim (shearModulus P.E P.nu) (lameFirst P.planeStrain P.E P.nu) (nodalGrad M u k) (Q.n k)

/-- Normal stress at a contact point. -/
def normalStress (u : ℕ → ℕ → ℝ) (k : ℕ) : ℝ := approach P.dim (tractionAt P M Q u k)

/-- Movement of a contact point towards the obstacle. -/
def normalMove (u : ℕ → ℕ → ℝ) (k : ℕ) : ℝ := approach P.dim (nodalValue M u k)

/-- Pressed against the obstacle for negative values: `σ_n(u) + γ (gap - u_n)`. -/
def pressed (u : ℕ → ℕ → ℝ) (k : ℕ) : ℝ :=
  normalStress P M Q u k + S.stiff k * (S.gap k - normalMove P M u k)

/-- Virtual work of the stress of `u` on the strain of `v`. -/
def innerWork (u v : ℕ → ℕ → ℝ) : ℝ :=
  quadSum Q.cells Q.wt (fun k => stressWork P.dim (shearModulus P.E P.nu) (lameFirst P.planeStrain P.E P.nu)
    (nodalGrad M u k) (nodalGrad M v k))

/-- Work of the forces that hold the body weakly, for the displacement `c * (prescribed)`: consistency, symmetry and
penalty term. -/
def heldWork (c : ℝ) (u v : ℕ → ℕ → ℝ) : ℝ :=
  (S.held.map (fun h => quadSum h.1 Q.wt (fun k =>
    -∑ i ∈ range P.dim, tractionAt P M Q u k i * nodalValue M v k i
      - P.theta * ∑ i ∈ range P.dim, tractionAt P M Q v k i * (nodalValue M u k i - c * h.2 i)
      + S.penalty k * ∑ i ∈ range P.dim, (nodalValue M u k i - c * h.2 i) * nodalValue M v k i))).sum

/-- Work of the contact forces in Nitsche's method:
`-(θ/γ) σ_n(u) σ_n(v) + (1/γ) [σ_n(u) + γ (gap - u_n)]₋ (θ σ_n(v) - γ v_n)`. -/
def obstacleWork (u v : ℕ → ℕ → ℝ) : ℝ :=
  quadSum Q.contact Q.wt (fun k =>
    -(P.theta / S.stiff k) * normalStress P M Q u k * normalStress P M Q v k
      + 1 / S.stiff k * min 0 (pressed P M Q S u k)
        * (P.theta * normalStress P M Q v k - S.stiff k * normalMove P M v k))

/-- Work of all forces of the displacement `u` on the virtual displacement `v`: zero for a body in equilibrium. -/
def totalWork (u v : ℕ → ℕ → ℝ) : ℝ := innerWork P M Q u v + heldWork P M Q S 1 u v + obstacleWork P M Q S u v

/-- Change of the work of all forces at the displacement `u` when it changes by `w`, to first order; contact points
on the border between contact and no contact count half. -/
def linearisedWork (u w v : ℕ → ℕ → ℝ) : ℝ :=
  innerWork P M Q w v + heldWork P M Q S 0 w v + quadSum Q.contact Q.wt (fun k =>
    -(P.theta / S.stiff k) * normalStress P M Q w k * normalStress P M Q v k
      + 1 / S.stiff k
        * (if pressed P M Q S u k < 0 then 1 else if 0 < pressed P M Q S u k then 0 else 1 / 2)
        * (normalStress P M Q w k - S.stiff k * normalMove P M w k)
        * (P.theta * normalStress P M Q v k - S.stiff k * normalMove P M v k))

/-- `v` vanishes at the nodes that are held exactly. -/
def Virtual (v : ℕ → ℕ → ℝ) : Prop := ∀ a, S.fixed a ≠ none → ∀ i < P.dim, v a i = 0

/-- `u` has the prescribed displacement at the nodes that are held exactly. -/
def Held (u : ℕ → ℕ → ℝ) : Prop := ∀ a < M.numNodes, ∀ g, S.fixed a = some g → ∀ i < P.dim, u a i = g i

/-- The displacement of the body: prescribed values and equilibrium. -/
def AtRest (u : ℕ → ℕ → ℝ) : Prop := Held P M S u ∧ ∀ v, Virtual P S v → totalWork P M Q S u v = 0

/-- The energy of the body and of the places that hold it exceeds `(1 + θ)² / 4` times the contact stresses weighted
with `1 / γ`, for all displacements but zero. -/
def Stiff : Prop := ∀ v, Virtual P S v → (∃ a < M.numNodes, ∃ i < P.dim, v a i ≠ 0) →
  (1 + P.theta) ^ 2 / 4 * quadSum Q.contact Q.wt (fun k => 1 / S.stiff k * normalStress P M Q v k ^ 2)
    < innerWork P M Q v v + heldWork P M Q S 0 v v

/-- The data of contact points make sense. -/
def Sound : Prop := ∀ k ∈ Q.contact, 0 ≤ Q.wt k ∧ 0 < S.stiff k

/-- The displacement by node and component of a returned vector. -/
def byNode (x : ℕ → ℝ) (a i : ℕ) : ℝ := x (P.dim * a + i)

/-- Size of a displacement: root of the sum of squares. -/
def nodalSize (u : ℕ → ℕ → ℝ) : ℝ := Real.sqrt (∑ a ∈ range M.numNodes, ∑ i ∈ range P.dim, u a i ^ 2)

/-- The update of Newton's method at the displacement `u`: `u - w` has the prescribed values and solves the equations
linearised at `u`. -/
def IsUpdate (u w : ℕ → ℕ → ℝ) : Prop :=
  (∀ a < M.numNodes, ∀ g, S.fixed a = some g → ∀ i < P.dim, w a i = u a i - g i)
  ∧ ∀ v, Virtual P S v → linearisedWork P M Q S u w v = totalWork P M Q S u v

/-- All nodes moved by `c` along the last axis. -/
def movedBy (c : ℝ) (_ i : ℕ) : ℝ := if i + 1 = P.dim then c else 0

/-- Between the displacements `u` and `w`, no contact point that is pressed or free at `w` is not so at `u`. -/
def ContactKept (u w : ℕ → ℕ → ℝ) : Prop := ∀ k ∈ Q.contact,
  (pressed P M Q S w k < 0 → pressed P M Q S u k < 0) ∧ (0 < pressed P M Q S w k → 0 < pressed P M Q S u k)

/-- `δ` is below the tolerance: absolutely, or relative to the first update of Newton's method at `start`. -/
def Tolerated (atol rtol : ℝ) (start : ℕ → ℕ → ℝ) (δ : ℝ) : Prop :=
  δ < atol ∨ ∃ first, IsUpdate P M Q S start first ∧ δ < rtol * nodalSize P M first

/-- An iteration with relaxation `ω` whose `k`-th update is `(1 - ω)^(k - 1)` times the first, of size `e`, may stop
after `k` iterations. -/
def MayStop (ω atol rtol e : ℝ) (k : ℕ) : Prop :=
  2 ≤ k ∧ ((1 - ω) ^ (k - 1) < rtol ∨ (1 - ω) ^ (k - 1) * e < atol)

/-- Contract of the linear solver for `N` unknowns: what it returns is the solution, and it does not fail if there is
exactly one. -/
def ExactSolver (N : ℕ) (lin : LinSolver) : Prop :=
  (∀ A b x, lin A b = some x → ∀ d < N, ∑ c ∈ range N, A d c * x c = b d)
  ∧ ∀ A b, (∃ x : ℕ → ℝ, ∀ y : ℕ → ℝ, (∀ d < N, ∑ c ∈ range N, A d c * y c = b d) ↔ ∀ d < N, y d = x d) →
    lin A b ≠ none

end

end Verif.Spec
