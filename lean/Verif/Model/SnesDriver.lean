import Verif.Model.Distributed
import Verif.Model.Meshing
import Verif.Model.OneSided

/-!
`python/dolfinx_contact/one_sided/snes_against_plane.py`: `snes_solver`, with the callbacks of
`NonlinearPDE_SNESProblem` (`helpers.py`, `Model/Distributed.lean`).  PETSc's SNES is a parameter.  Not
modelled: options, near null space, timers.
-/

namespace Verif.Snes

open Finset Verif.OneSided Verif.Distributed

noncomputable section

/-- The mesh and first order Lagrange functions on it.  `procs`, `owner` (of a dof) and `cells` are the
distribution over processes, `tdim` and `markerDim` are `mesh.topology.dim` and `facet_marker.dim`, `x` are the
coordinates of nodes, `tags` the pairs of facet and value of `facet_marker`, `facetNodes` the nodes of a facet,
`points` the quadrature points FFCx generates for a cell, `wt` their weights, and `phi k a`, `dphi k a` are
value and gradient at point `k` of the scalar basis function of node `a` (zero if the cell of `k` does not have
node `a`).  Dof `gdim * a + i` is component `i` at node `a`. -/
structure Mesh where
  procs : ℕ
  owner : ℕ → ℕ
  cells : ℕ → List ℕ
  tdim : ℕ
  markerDim : ℕ
  numNodes : ℕ
  x : ℕ → ℕ → ℝ
  tags : List (ℕ × ℤ)
  facetNodes : ℕ → List ℕ
  points : ℕ → List ℕ
  wt : ℕ → ℝ
  phi : ℕ → ℕ → ℝ
  dphi : ℕ → ℕ → ℕ → ℝ

/-- Number of dofs of `V` (`snes_against_plane.py:97`). -/
def numDofs (P : Params) (M : Mesh) : ℕ := M.numNodes * P.dim

/-- The basis function of dof `g` at point `k` (`v`, `snes_against_plane.py:108`). -/
def basis (P : Params) (M : Mesh) (g k : ℕ) : Val where
  val := fun i => if i = g % P.dim then M.phi k (g / P.dim) else 0
  grad := fun i j => if i = g % P.dim then M.dphi k (g / P.dim) j else 0

/-- The function with dofs `u` at point `k` (`u`, `snes_against_plane.py:107`). -/
def field (P : Params) (M : Mesh) (u : ℕ → ℝ) (k : ℕ) : Val where
  val := fun i => ∑ a ∈ range M.numNodes, u (P.dim * a + i) * M.phi k a
  grad := fun i j => ∑ a ∈ range M.numNodes, u (P.dim * a + i) * M.dphi k a j

/-- Element vector of `F` (`snes_against_plane.py:118`): elasticity minus the zero body force. -/
def cellVec (P : Params) (M : Mesh) (c : ℕ) (u : ℕ → ℝ) (g : ℕ) : ℝ :=
  ((M.points c).map (fun k => M.wt k * elastic P (field P M u k) (basis P M g k))).sum
    - ((M.points c).map (fun k => M.wt k * dotV P.dim (fun _ => 0) (basis P M g k).val)).sum

/-- Element matrix of `ufl.derivative(F, u, du)` (`helpers.py:157-161`): `F` is linear in `u`. -/
def cellMat (P : Params) (M : Mesh) (c : ℕ) (_ : ℕ → ℝ) (g j : ℕ) : ℝ :=
  ((M.points c).map (fun k => M.wt k * elastic P (basis P M j k) (basis P M g k))).sum

/-- `NonlinearPDE_SNESProblem(F, u, bc)` (`snes_against_plane.py:146-148`); there are no contact facets. -/
def problem (P : Params) (M : Mesh) : Problem where
  procs := M.procs
  owner := M.owner
  cells := M.cells
  facets := fun _ => []
  cellVec := cellVec P M
  facetVec := fun _ _ _ => 0
  cellMat := cellMat P M

/-- `dirichlet_dofs` (`snes_against_plane.py:140-142`): `facet_marker.find(top_value)` and
`locate_dofs_topological`; the nodes of the facets, all components. -/
def bcDof (P : Params) (M : Mesh) (top : ℤ) (g : ℕ) : Bool :=
  ((M.tags.filter (fun t => t.2 == top)).flatMap (fun t => M.facetNodes t.1)).contains (g / P.dim)

/-- `u_D` (`snes_against_plane.py:129-137`). -/
def bcValue (P : Params) (g : ℕ) : ℝ := uD P (g % P.dim)

/-- `umin` (`snes_against_plane.py:166-170`, `174-175`): `_constraint_l` at the node of the dof. -/
def lower (P : Params) (M : Mesh) (g : ℕ) : ℝ :=
  Meshing.umin P.dim P.planeLoc (M.x (g / P.dim)) (g % P.dim)

/-- `umax` (`snes_against_plane.py:160-164`, `172-173`). -/
def upper (P : Params) (M : Mesh) (g : ℕ) : ℝ :=
  Meshing.umax P.dim P.planeLoc (M.x (g / P.dim)) (g % P.dim)

/-- `_u_initial` (`snes_against_plane.py:212-217`); `values[-1]` is the last component. -/
def initial (P : Params) (g : ℕ) : ℝ := if g % P.dim = P.dim - 1 then -0.01 - P.planeLoc else 0

/-- `SNES.solve` with the callbacks for residual and Jacobian, the variable bounds and the initial vector:
converged reason and final vector. -/
abbrev Solver := (DVec → DVec) → (DVec → ℕ → ℕ → ℝ) → (ℕ → ℝ) → (ℕ → ℝ) → DVec → ℤ × DVec

/-- `snes_solver` (`snes_against_plane.py:26-227`).  `mesh_data` is `(facet_marker, top, bottom)`; the last value
is not used (line 92).  Of `P` the driver reads dimension, material, plane and displacement.  SNES evaluates the
Jacobian at the `u` its last call of the residual has set.  `rigid_motions_nullspace` asserts that the dimension
is 2 or 3 (`helpers.py:200`). -/
def snesSolver (P : Params) (M : Mesh) (top _bottom : ℤ) (solve : Solver) : Except String DVec :=
  let S := problem P M
  if M.markerDim ≠ M.tdim - 1 then .error "AssertionError"
  else if M.tdim ≠ P.dim then .error "AssertionError"
  else if P.dim ≠ 2 ∧ P.dim ≠ 3 then .error "AssertionError"
  else
    let bc := bcDof P M top
    let r := solve (snesF S (numDofs P M) bc (bcValue P)) (fun x => snesJ S bc (fun g => x (S.owner g) g))
      (lower P M) (upper P M) (fun _ => initial P)
    let u := ghostForward S r.2
    if ¬ r.1 > 1 then .error "AssertionError"
    else if ¬ r.1 < 4 then .error "AssertionError"
    else .ok u

end

end Verif.Snes
