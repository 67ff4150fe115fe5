import Verif.Model.SnesDriver
import Verif.Spec.OneSided

/-!
Specification for `snes_solver`: what a solver for problems with bounds on the variables promises, and a body
with nodal forces and elastic energy above a plane.
-/

namespace Verif.Spec

open Finset Verif.OneSided Verif.Distributed Verif.Snes

noncomputable section

/-- Zero iff `lo ≤ x ≤ up` and `F` is zero strictly between the bounds, not negative at the lower and not positive
at the upper one (for `lo < up`). -/
def boundedResidual (lo up x F : ℝ) : ℝ := max (x - up) (min (x - lo) F)

/-- Contract of SNES for variable bounds: if the solver reports convergence in the residual (reasons 2 and 3), then
the equations with bounds hold for the first `n` unknowns up to `tol`. -/
def SolvesWithBounds (owner : ℕ → ℕ) (n : ℕ) (tol : ℝ) (solve : Solver) : Prop :=
  ∀ F J lo up x0, (solve F J lo up x0).1 = 2 ∨ (solve F J lo up x0).1 = 3 → ∀ g < n,
    |boundedResidual (lo g) (up g) ((solve F J lo up x0).2 (owner g) g)
      (F (solve F J lo up x0).2 (owner g) g)| ≤ tol

/-- All quadrature points of the mesh. -/
def meshPoints (M : Mesh) : List ℕ := (List.range M.procs).flatMap (fun p => (M.cells p).flatMap M.points)

/-- Gradient at point `k` of the displacement with value `u a i` for component `i` at node `a`. -/
def nodalGrad (M : Mesh) (u : ℕ → ℕ → ℝ) (k i j : ℕ) : ℝ := ∑ a ∈ range M.numNodes, u a i * M.dphi k a j

/-- Virtual work of the stress of `u` on the strain of `v`, in the whole body. -/
def bodyWork (P : Params) (M : Mesh) (u v : ℕ → ℕ → ℝ) : ℝ :=
  quadSum (meshPoints M) M.wt (fun k => stressWork P.dim (shearModulus P.E P.nu) (lameFirst P.planeStrain P.E P.nu)
    (nodalGrad M u k) (nodalGrad M v k))

/-- The elastic energy of the displacement `u`. -/
def bodyEnergy (P : Params) (M : Mesh) (u : ℕ → ℕ → ℝ) : ℝ := 1 / 2 * bodyWork P M u u

/-- The force needed at node `a` in direction `i` to hold the body at the displacement `u`: the work on the unit
displacement of the node. -/
def nodalForce (P : Params) (M : Mesh) (u : ℕ → ℕ → ℝ) (a i : ℕ) : ℝ :=
  bodyWork P M u (fun b j => if b = a ∧ j = i then 1 else 0)

/-- A node of a facet with value `v`. -/
def OnFacet (M : Mesh) (v : ℤ) (a : ℕ) : Prop := ∃ f, (f, v) ∈ M.tags ∧ a ∈ M.facetNodes f

/-- The displacement by node and component of a returned vector. -/
def nodal (P : Params) (M : Mesh) (v : DVec) (a i : ℕ) : ℝ := v (M.owner (P.dim * a + i)) (P.dim * a + i)

/-- The displacement `u` with the prescribed one put in on the facets with value `top`: `disp` in the last
direction, zero in the others. -/
def withPrescribed (P : Params) (M : Mesh) (top : ℤ) (u : ℕ → ℕ → ℝ) (a i : ℕ) : ℝ :=
  open Classical in
  if OnFacet M top a then (if i = P.dim - 1 then P.disp else 0) else u a i

/-- The displacement keeps node `a` on or above the plane at height `-plane_loc` and within a box of size `10^7`. -/
def Above (P : Params) (M : Mesh) (u : ℕ → ℕ → ℝ) (a : ℕ) : Prop :=
  -P.planeLoc ≤ M.x a (P.dim - 1) + u a (P.dim - 1) ∧ M.x a (P.dim - 1) + u a (P.dim - 1) ≤ 10000000
    ∧ ∀ i < P.dim - 1, |M.x a i + u a i| ≤ 10000000

/-- The prescribed displacement does not push the nodes it is prescribed at through the plane. -/
def PrescribedAbove (P : Params) (M : Mesh) (top : ℤ) : Prop :=
  ∀ a < M.numNodes, OnFacet M top a → Above P M (fun _ i => if i = P.dim - 1 then P.disp else 0) a

/-- Only the zero displacement vanishes at the nodes of the facets with value `top` and has no elastic energy. -/
def Supported (P : Params) (M : Mesh) (top : ℤ) : Prop :=
  ∀ w : ℕ → ℕ → ℝ, (∀ a, OnFacet M top a → ∀ i < P.dim, w a i = 0) → bodyEnergy P M w = 0 →
    ∀ a < M.numNodes, ∀ i < P.dim, w a i = 0

/-- The same body, distributed over processes in two ways. -/
structure SameMesh (M N : Mesh) : Prop where
  numNodes : M.numNodes = N.numNodes
  x : M.x = N.x
  facets : ∀ v a, OnFacet M v a ↔ OnFacet N v a
  points : (meshPoints M).Perm (meshPoints N)
  wt : M.wt = N.wt
  dphi : M.dphi = N.dphi

end

end Verif.Spec
