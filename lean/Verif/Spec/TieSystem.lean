import Verif.Model.TieSystem
import Verif.Spec.MeshTieData
import Verif.Spec.FacetGeometry

/-!
Specification for the assembled vector and matrix of tied bodies (C117–C120), in terms of the functions on
the mesh: which quadrature points are tied, the jump and mean gradient of a function there, and the forms.
-/

namespace Verif.Spec

open Verif.TieData Verif.Kernels Finset

noncomputable section

/-- What the library and the search guarantee about the data of a tie. -/
structure TieMesh.Valid (M : TieMesh) : Prop where
  dim : 0 < M.gdim
  cell : M.cell ≠ .prism ∧ M.cell ≠ .pyramid ∧ M.cell ≠ .interval
  /-- owned facets are active -/
  loc : ∀ i < M.numPairs, M.localFacets i ≤ (M.facets i).length
  /-- contact points lie in cells of the submesh -/
  cells : ∀ i r, M.subCell (M.closest i r) < M.numCells
  /-- the submesh numbers its cells in the order of the mesh (C26) -/
  order : ∀ c c', c < c' → c' < M.numCells → M.parentCell c < M.parentCell c'
  /-- on affine cells the Jacobian is constant -/
  affine : M.affine = true → ∀ f q, M.cphi (M.off f + q) = M.cphi (M.off f)

/-- Dofs shared in the copy of the space on the submesh are shared on the mesh. -/
def TieElement.Valid (M : TieMesh) (E : TieElement) : Prop :=
  ∀ c i c' i', c < M.numCells → i < E.nd → c' < M.numCells → i' < E.nd → E.sub c i = E.sub c' i' →
    E.dofs (M.parentCell c) i = E.dofs (M.parentCell c') i'

/-- All dofs of the cells at the tied surfaces are less than `N`. -/
def TieDofsBelow (M : TieMesh) (E : TieElement) (N : ℕ) : Prop :=
  (∀ i < M.numPairs, ∀ p ∈ M.facets i, ∀ a < E.nd, E.bs * E.dofs p.1 a + E.bs ≤ N)
  ∧ ∀ c < M.numCells, ∀ a < E.nd, E.bs * E.dofs (M.parentCell c) a + E.bs ≤ N

/-! ### tied points -/

/-- Length of the gap vector at quadrature point `q` of facet `e` of pair `i`. -/
def gapNorm (M : TieMesh) (i e q : ℕ) : ℝ :=
  Real.sqrt (∑ a ∈ range M.gdim, M.gap i ((e * M.nq + q) * M.gdim + a) ^ 2)

/-- A quadrature point is tied if its gap is not longer than the largest cell at the surface, and tiny or
within 45 degrees of the normal. -/
def Tied (M : TieMesh) (i e q : ℕ) : Prop :=
  (∃ e' < M.localFacets i, gapNorm M i e q ≤ M.h i e')
  ∧ (gapNorm M i e q ≤ 1 / 10 ^ 7
    ∨ 7 / 10 * gapNorm M i e q ≤ |∑ a ∈ range M.gdim, M.gap i ((e * M.nq + q) * M.gdim + a)
        * M.ny i ((e * M.nq + q) * M.gdim + a)|)

/-- On every facet the points that are not tied come after those that are. -/
def TiedFirst (M : TieMesh) : Prop :=
  ∀ i < M.numPairs, ∀ e < M.localFacets i, ∀ q q', q' < q → q < M.nq → Tied M i e q → Tied M i e q'

/-! ### functions at quadrature points -/

/-- Component `a` of a function at quadrature point `q` of local facet `f` of a cell. -/
def tieValue (M : TieMesh) (E : TieElement) (cell f : ℕ) (u : ℕ → ℝ) (q a : ℕ) : ℝ :=
  ∑ k ∈ range E.nd, E.phi (M.off f + q) k * u (E.bs * E.dofs cell k + a)

/-- Derivative of component `i` of the map of a cell in reference direction `j`, at tabulated point `r`. -/
def tieJacobian (M : TieMesh) (cell r i j : ℕ) : ℝ :=
  ∑ n ∈ range M.geo.nx, M.geo.x (3 * M.geo.xdof cell n + i) * M.cphi r (j + 1) n

/-- Its gradient: chain rule with the inverse Jacobian. -/
def tieGrad (M : TieMesh) (E : TieElement) (cell f : ℕ) (u : ℕ → ℝ) (q a b : ℕ) : ℝ :=
  ∑ k ∈ range E.nd, (∑ j ∈ range M.tdim, M.inv (tieJacobian M cell (M.off f + q)) j b
    * E.dphi j (M.off f + q) k) * u (E.bs * E.dofs cell k + a)

/-- Unit outward normal of local facet `f` of a cell at quadrature point `q`: the reference normal mapped
with the inverse transpose of the Jacobian, scaled to length one. -/
def tieOutward (M : TieMesh) (cell f q a : ℕ) : ℝ :=
  (∑ j ∈ range M.tdim, M.inv (tieJacobian M cell (M.off f + q)) j a * M.nref f j)
    / Real.sqrt (∑ b ∈ range M.gdim, (∑ j ∈ range M.tdim, M.inv (tieJacobian M cell (M.off f + q)) j b * M.nref f j) ^ 2)

/-- Integration weight: reference weight times surface determinant. -/
def tieWeight (M : TieMesh) (cell f q : ℕ) : ℝ := M.weights f q * M.det f (tieJacobian M cell (M.off f + q))

/-- The cell of the closest point of quadrature point `q` of facet `e` of pair `i`. -/
def oppositeCell (M : TieMesh) (i e q : ℕ) : ℕ := M.parentCell (M.subCell (M.closest i (e * M.nq + q)))

/-- The function at the closest point. -/
def tieOpposite (M : TieMesh) (E : TieElement) (i e : ℕ) (u : ℕ → ℝ) (q a : ℕ) : ℝ :=
  ∑ k ∈ range E.nd, E.basis i (e * M.nq + q) k * u (E.bs * E.dofs (oppositeCell M i e q) k + a)

/-- Its gradient there. -/
def tieOppositeGrad (M : TieMesh) (E : TieElement) (i e : ℕ) (u : ℕ → ℝ) (q a b : ℕ) : ℝ :=
  ∑ k ∈ range E.nd, E.grad i (oppositeCell M i e q) (e * M.nq + q) k b
    * u (E.bs * E.dofs (oppositeCell M i e q) k + a)

/-- The jump of a function. -/
def tieJumpAt (M : TieMesh) (E : TieElement) (i e cell f : ℕ) (u : ℕ → ℝ) (q a : ℕ) : ℝ :=
  tieValue M E cell f u q a - tieOpposite M E i e u q a

/-- The mean of the gradients of both sides. -/
def tieMeanGrad (M : TieMesh) (E : TieElement) (i e cell f : ℕ) (u : ℕ → ℝ) (q a b : ℕ) : ℝ :=
  (tieGrad M E cell f u q a b + tieOppositeGrad M E i e u q a b) / 2

/-- A scalar coefficient at the midpoint of local facet `f` of a cell. -/
def midValue (E : TieElement) (cell f : ℕ) (u : ℕ → ℝ) : ℝ := ∑ k ∈ range E.nd, E.phi0 f k * u (E.dofs cell k)

/-! ### forms -/

/-- Nitsche's coupling of two elastic bodies at a point, one surface's half: `J`, `D` are jump and mean
gradient of the displacement, `J'`, `D'` of the test function, `n` the normal. -/
def elasticPart (g : ℕ) (mu lam gamma theta h : ℝ) (n J : ℕ → ℝ) (D : ℕ → ℕ → ℝ) (J' : ℕ → ℝ)
    (D' : ℕ → ℕ → ℝ) : ℝ :=
  1 / 2 * (∑ a ∈ range g, (-traction g mu lam D n a + gamma / h * J a) * J' a
    - theta * ∑ a ∈ range g, traction g mu lam D' n a * J a)

/-- The same for heat conduction. -/
def heatPart (g : ℕ) (kappa gamma theta h : ℝ) (n : ℕ → ℝ) (J : ℝ) (D : ℕ → ℝ) (J' : ℝ) (D' : ℕ → ℝ) : ℝ :=
  1 / 2 * kappa * ((-(∑ b ∈ range g, D b * n b) + gamma / h * J) * J' - theta * (∑ b ∈ range g, D' b * n b) * J)

/-- Thermal stress of mean temperature `T`. -/
def thermalPart (g : ℕ) (mu lam alpha : ℝ) (n : ℕ → ℝ) (T : ℝ) (J' : ℕ → ℝ) : ℝ :=
  1 / 2 * (alpha * (3 * lam + 2 * mu)) * T * ∑ a ∈ range g, n a * J' a

open Classical in
/-- Quadrature sum over the owned facets of all pairs and their tied points; the summand gets pair, facet,
its cell and local facet, and the point. -/
def tieSum (M : TieMesh) (F : ℕ → ℕ → ℕ → ℕ → ℕ → ℝ) : ℝ :=
  ∑ i ∈ range M.numPairs, ∑ e ∈ range (M.localFacets i),
    ((M.facets i)[e]?).elim 0 (fun p => ∑ q ∈ range M.nq,
      if Tied M i e q then tieWeight M p.1 p.2 q * F i e p.1 p.2 q else 0)

/-- The form for tied elastic bodies; `mat` are the dofs of the material parameters, `EQ` their space. -/
def elasticTie (M : TieMesh) (E EQ : TieElement) (mat : Key → ℕ → ℝ) (gamma theta : ℝ) (u v : ℕ → ℝ) : ℝ :=
  tieSum M (fun i e cell f q =>
    elasticPart M.gdim (midValue EQ cell f (mat .mu)) (midValue EQ cell f (mat .lam)) gamma theta (M.h i e)
      (tieOutward M cell f q) (tieJumpAt M E i e cell f u q) (tieMeanGrad M E i e cell f u q)
      (tieJumpAt M E i e cell f v q) (tieMeanGrad M E i e cell f v q))

/-- The form for heat conduction in tied bodies. -/
def heatTie (M : TieMesh) (E EQ : TieElement) (mat : Key → ℕ → ℝ) (gamma theta : ℝ) (u v : ℕ → ℝ) : ℝ :=
  tieSum M (fun i e cell f q =>
    heatPart M.gdim (midValue EQ cell f (mat .kdt)) gamma theta (M.h i e) (tieOutward M cell f q)
      (tieJumpAt M E i e cell f u q 0) (tieMeanGrad M E i e cell f u q 0)
      (tieJumpAt M E i e cell f v q 0) (tieMeanGrad M E i e cell f v q 0))

/-- The thermal stress of temperature `T` (space `ET`), tested with `v`. -/
def thermalTie (M : TieMesh) (E EQ ET : TieElement) (mat : Key → ℕ → ℝ) (T v : ℕ → ℝ) : ℝ :=
  tieSum M (fun i e cell f q =>
    thermalPart M.gdim (midValue EQ cell f (mat .mu)) (midValue EQ cell f (mat .lam))
      (midValue EQ cell f (mat .alpha)) (tieOutward M cell f q)
      ((tieValue M ET cell f T q 0 + tieOpposite M ET i e T q 0) / 2) (tieJumpAt M E i e cell f v q))

/-! ### what the calls have given -/

/-- Generation `g` was for problem `p` with space `E`, material dofs `mat` in the scalar space `EQ`, and
parameters `γ`, `θ`. -/
structure GeneratedFor (M : TieMesh) (E EQ : TieElement) (p : Problem) (mat : Key → ℕ → ℝ) (gamma theta : ℝ)
    (g : Gen ℝ) : Prop where
  problem : g.p = p
  space : g.V = M.space E
  gamma : g.gamma = gamma
  theta : g.theta = theta
  mat : ∀ k ∈ required p, g.co k = some (M.func EQ (mat k))
  scalar : EQ.bs = 1

/-- The solution given last is the function of `E` with dofs `u`. -/
def SolutionIs (M : TieMesh) (E : TieElement) (u : ℕ → ℝ) (g : Gen ℝ) : Prop :=
  ∃ co, g.sol = some co ∧ co (trigger g.p) = some (M.func E u)

/-- The temperature given last for thermo-elasticity is the function of the scalar space `ET` with dofs
`T`. -/
def TemperatureIs (M : TieMesh) (ET : TieElement) (T : ℕ → ℝ) (g : Gen ℝ) : Prop :=
  ET.bs = 1 ∧ ∃ co, g.sol = some co ∧ co .T = some (M.func ET T)

/-- Basis functions sum to one, their gradients to zero, at the quadrature points and at the closest
points. -/
def TieSumsToOne (M : TieMesh) (E : TieElement) : Prop :=
  ∀ i < M.numPairs, ∀ e < M.localFacets i, ∀ cell f, (M.facets i)[e]? = some (cell, f) → ∀ q < M.nq,
    ∑ k ∈ range E.nd, E.phi (M.off f + q) k = 1
    ∧ (∀ j < M.tdim, ∑ k ∈ range E.nd, E.dphi j (M.off f + q) k = 0)
    ∧ ∑ k ∈ range E.nd, E.basis i (e * M.nq + q) k = 1
    ∧ ∀ b < M.gdim, ∑ k ∈ range E.nd, E.grad i (oppositeCell M i e q) (e * M.nq + q) k b = 0

end

end Verif.Spec
