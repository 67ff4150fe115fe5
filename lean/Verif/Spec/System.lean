import Verif.Model.System
import Verif.Spec.ContactProblem
import Verif.Spec.FacetGeometry
import Verif.Spec.Packing

/-!
Specification for the assembled contact residual and its derivative (C112, C113).
-/

namespace Verif.Spec

open Verif.ContactProblem Verif.Kernels Finset

noncomputable section

variable {G : Type}

/-- What the library and the constructor guarantee about the data of a contact problem. -/
structure System.Valid (Y : System G) : Prop where
  pairs : 0 < Y.numPairs
  dim : 0 < Y.gdim
  points : 0 < Y.nq
  cell : Y.cell ≠ .prism ∧ Y.cell ≠ .pyramid ∧ Y.cell ≠ .interval
  /-- owned facets are active -/
  loc : ∀ i < Y.numPairs, Y.localFacets i ≤ (Y.facets i).length
  gap : ∀ g, ∀ i < Y.numPairs, (Y.gap g i).rows = Y.localFacets i ∧ (Y.gap g i).cols = Y.nq * Y.gdim
  nx : ∀ g, ∀ i < Y.numPairs, (Y.nx g i).rows = Y.localFacets i ∧ (Y.nx g i).cols = Y.nq * Y.gdim
  ny : ∀ g, ∀ i < Y.numPairs, (Y.ny g i).rows = Y.localFacets i ∧ (Y.ny g i).cols = Y.nq * Y.gdim
  /-- the displacement space -/
  space : Y.space.nd = Y.nd ∧ Y.space.bs = Y.gdim
  /-- `create_distance_map` links all quadrature points of a facet or none (C24; the closest point search
  links all) -/
  search : ∀ g, ∀ i < Y.numPairs, ∀ e < Y.localFacets i,
    (∀ q < Y.nq, 0 ≤ Y.map g i (e * Y.nq + q)) ∨ (∀ q < Y.nq, Y.map g i (e * Y.nq + q) = -1)
  /-- contact points lie in cells of the submesh -/
  cells : ∀ g i r (f : ℕ), Y.map g i r = f → Y.subCell f < Y.space.numCells
  /-- dofs shared in the submesh are shared in the mesh -/
  shared : ∀ c i c' i', c < Y.space.numCells → i < Y.nd → c' < Y.space.numCells → i' < Y.nd →
    Y.space.sub c i = Y.space.sub c' i' →
    Y.space.parent (Y.space.parentCell c) i = Y.space.parent (Y.space.parentCell c') i'
  /-- on affine cells the Jacobian is constant -/
  affine : Y.affine = true → ∀ f q, Y.cphi (Y.off f + q) = Y.cphi (Y.off f)

/-- All dofs of the cells at the contact surfaces are less than `N`. -/
def DofsBelow (Y : System G) (N : ℕ) : Prop :=
  (∀ i < Y.numPairs, ∀ p ∈ Y.facets i, ∀ a < Y.nd, Y.gdim * Y.space.parent p.1 a + Y.gdim ≤ N)
  ∧ ∀ c < Y.space.numCells, ∀ a < Y.nd, Y.gdim * Y.space.parent (Y.space.parentCell c) a + Y.gdim ≤ N

/-- The cells a facet couples: its own, then the linked ones. -/
def coupledCell (cell : ℕ) (linked : List ℕ) (B : ℕ) : ℕ :=
  match B with
  | 0 => cell
  | k + 1 => linked.getD k 0

/-- Dofs of the coupled cells of a facet: component `m % g` of basis function `m / g`. -/
def coupledDofs (g : ℕ) (dofs : ℕ → ℕ → ℕ) (cell : ℕ) (linked : List ℕ) (u : ℕ → ℝ) (B m : ℕ) : ℝ :=
  u (g * dofs (coupledCell cell linked B) (m / g) + m % g)

/-- At point `q` the residual of a friction law is differentiable: neither the contact nor the stick/slip
condition switches. The friction bound is zero or at least `1e-14` (C03). -/
def AwayFromSwitches (law : Law) (D : KD) (c w : ℕ → ℝ) (q : ℕ) : Prop :=
  D.dims.pressure c w (facetNormal D q) q ≠ 0 ∧
  match law with
  | .frictionless => True
  | .tresca => D.dims.UnitNormal c q ∧ (c 3 / w 0 * c 2 = 0 ∨ 1e-14 ≤ c 3 / w 0 * c 2) ∧
      Real.sqrt (∑ a ∈ range D.gdim, D.dims.slip c w (facetNormal D q) q a ^ 2) ≠ c 3 / w 0 * c 2
  | .coulomb => D.dims.UnitNormal c q
      ∧ (c 2 * max 0 (D.dims.pressure c w (facetNormal D q) q) = 0
        ∨ 1e-14 ≤ c 2 * max 0 (D.dims.pressure c w (facetNormal D q) q))
      ∧ Real.sqrt (∑ a ∈ range D.gdim, D.dims.slipC c w (facetNormal D q) q a ^ 2)
        ≠ c 2 * max 0 (D.dims.pressure c w (facetNormal D q) q)

/-! ### the weak form of a contact problem, in terms of the displacement -/

/-- Data of a quadrature point of a contact surface: dimension, Lamé parameters, friction coefficient,
mesh size, contact normal and that of the previous load step, gap vector, normal of the facet, gradient of
the displacement of earlier load steps. -/
structure ContactPoint where
  g : ℕ
  mu : ℝ
  lam : ℝ
  fric : ℝ
  h : ℝ
  normal : ℕ → ℝ
  oldNormal : ℕ → ℝ
  gap : ℕ → ℝ
  nPhys : ℕ → ℝ
  grad0 : ℕ → ℕ → ℝ

/-- `x · n`. -/
def ContactPoint.dot (p : ContactPoint) (x : ℕ → ℝ) : ℝ := ∑ a ∈ range p.g, x a * p.normal a

/-- Tangential part. -/
def ContactPoint.tang (p : ContactPoint) (x : ℕ → ℝ) (a : ℕ) : ℝ := x a - p.dot x * p.normal a

/-- Traction of a displacement gradient on the facet. -/
def ContactPoint.trac (p : ContactPoint) (D : ℕ → ℕ → ℝ) (a : ℕ) : ℝ := traction p.g p.mu p.lam D p.nPhys a

/-- `P(u) = [u] · n - gap · n - (h / γ) σ(u) · n`, where `J` is the jump `[u]` and `D` the gradient of
the total displacement. -/
def ContactPoint.pressure (p : ContactPoint) (gamma : ℝ) (J : ℕ → ℝ) (D : ℕ → ℕ → ℝ) : ℝ :=
  p.dot J - p.dot p.gap - p.h / gamma * p.dot (p.trac D)

/-- Frictionless part of Nitsche's form; `J'`, `D'` are jump and gradient of the test function. -/
def ContactPoint.normalPart (p : ContactPoint) (gamma theta : ℝ) (J : ℕ → ℝ) (D : ℕ → ℕ → ℝ)
    (J' : ℕ → ℝ) (D' : ℕ → ℕ → ℝ) : ℝ :=
  1 / 2 * (gamma / p.h) * max 0 (p.pressure gamma J D) * (p.dot J' - theta * (p.h / gamma) * p.dot (p.trac D'))
    - 1 / 2 * theta * (p.h / gamma) * p.dot (p.trac D) * p.dot (p.trac D')

/-- The slip `[u]_t - (h / γ) σ_t(u)`. -/
def ContactPoint.slip (p : ContactPoint) (gamma : ℝ) (J : ℕ → ℝ) (D : ℕ → ℕ → ℝ) (a : ℕ) : ℝ :=
  p.tang J a - p.h / gamma * p.tang (p.trac D) a

/-- The projected slip: Tresca with bound `(h / γ) s`, Coulomb with bound `μ [P(u)]₊` and the correction
for the change of the normal. -/
def ContactPoint.projected (p : ContactPoint) (law : Law) (gamma : ℝ) (J : ℕ → ℝ) (D : ℕ → ℕ → ℝ) : ℕ → ℝ :=
  match law with
  | .frictionless => fun _ => 0
  | .tresca => ball p.g (p.slip gamma J D) (p.h / gamma * p.fric)
  | .coulomb => ball p.g (fun a => p.slip gamma J D a - (p.dot p.gap - p.dot J) * p.tang p.oldNormal a)
      (p.fric * max 0 (p.pressure gamma J D))

/-- Friction part of the form. -/
def ContactPoint.frictionPart (p : ContactPoint) (law : Law) (gamma theta : ℝ) (J : ℕ → ℝ) (D : ℕ → ℕ → ℝ)
    (J' : ℕ → ℝ) (D' : ℕ → ℕ → ℝ) : ℝ :=
  1 / 2 * (gamma / p.h) * ∑ a ∈ range p.g, p.projected law gamma J D a
      * (p.tang J' a - theta * (p.h / gamma) * p.tang (p.trac D') a)
    - 1 / 2 * theta * (p.h / gamma) * ∑ a ∈ range p.g, p.tang (p.trac D) a * p.tang (p.trac D') a

/-- The contribution of a point, per unit of area. -/
def ContactPoint.form (p : ContactPoint) (law : Law) (gamma theta : ℝ) (J : ℕ → ℝ) (D : ℕ → ℕ → ℝ)
    (J' : ℕ → ℝ) (D' : ℕ → ℕ → ℝ) : ℝ :=
  p.normalPart gamma theta J D J' D' + if law = .frictionless then 0 else p.frictionPart law gamma theta J D J' D'

/-- Component `a` of a displacement at quadrature point `q` of local facet `f` of a cell. -/
def valueAt (Y : System G) (cell f : ℕ) (u : ℕ → ℝ) (q a : ℕ) : ℝ :=
  ∑ k ∈ range Y.nd, Y.phi (Y.off f + q) k * u (Y.gdim * Y.space.parent cell k + a)

/-- Derivative of component `i` of the map of a cell in reference direction `j`, at tabulated point `r`. -/
def jacobianAt (Y : System G) (cell r i j : ℕ) : ℝ :=
  ∑ n ∈ range Y.geo.nx, Y.geo.x (3 * Y.geo.xdof cell n + i) * Y.cphi r (j + 1) n

/-- Its gradient: chain rule with the inverse Jacobian. -/
def gradAt (Y : System G) (cell f : ℕ) (u : ℕ → ℝ) (q a b : ℕ) : ℝ :=
  ∑ k ∈ range Y.nd, (∑ j ∈ range Y.tdim, Y.inv (jacobianAt Y cell (Y.off f + q)) j b
    * Y.dphi j (Y.off f + q) k) * u (Y.gdim * Y.space.parent cell k + a)

/-- Unit outward normal of local facet `f` of a cell at quadrature point `q`: the reference normal mapped
with the inverse transpose of the Jacobian, scaled to length one. -/
def outwardAt (Y : System G) (cell f q a : ℕ) : ℝ :=
  (∑ j ∈ range Y.tdim, Y.inv (jacobianAt Y cell (Y.off f + q)) j a * Y.nref f j)
    / Real.sqrt (∑ b ∈ range Y.gdim, (∑ j ∈ range Y.tdim, Y.inv (jacobianAt Y cell (Y.off f + q)) j b * Y.nref f j) ^ 2)

/-- Integration weight: reference weight times surface determinant. -/
def weightAt (Y : System G) (cell f q : ℕ) : ℝ := Y.weights f q * Y.det f (jacobianAt Y cell (Y.off f + q))

/-- The contact normal: the normal of the own surface if the contact points are found by ray tracing, minus
the normal of the opposite surface otherwise. -/
def contactNormalAt (Y : System G) (g : G) (i e q a : ℕ) : ℝ :=
  if Y.raytracing i then (Y.nx g i).v e (q * Y.gdim + a) else -(Y.ny g i).v e (q * Y.gdim + a)

/-- The displacement at the contact point of quadrature point `q` of facet `e` of pair `i`, found in
geometry `g`. -/
def oppositeAt (Y : System G) (g : G) (i e : ℕ) (u : ℕ → ℝ) (q a : ℕ) : ℝ :=
  ∑ k ∈ range Y.nd, Y.basis g i (e * Y.nq + q) k
    * u (Y.gdim * Y.space.parent (Y.space.parentCell (Y.subCell (Y.map g i (e * Y.nq + q)).toNat)) k + a)

/-- The jump of a displacement across the contact zone. -/
def jumpAt (Y : System G) (g : G) (i e cell f : ℕ) (u : ℕ → ℝ) (q a : ℕ) : ℝ :=
  valueAt Y cell f u q a - oppositeAt Y g i e u q a

/-- The data of quadrature point `q` of facet `e` of pair `i` after a sequence of calls. -/
def pointAt (Y : System G) (t : Tracked G) (i e cell f q : ℕ) : ContactPoint where
  g := Y.gdim
  mu := t.mu i e 0
  lam := t.lam i e 0
  fric := t.fric i e 0
  h := t.h i e 0
  normal := contactNormalAt Y t.cur i e q
  oldNormal := contactNormalAt Y t.prev i e q
  gap := fun a => (Y.gap t.cur i).v e (q * Y.gdim + a)
  nPhys := outwardAt Y cell f q
  grad0 := fun a b => t.gradU i e ((q * Y.gdim + a) * Y.gdim + b)

/-- Nitsche's form for the contact conditions of all pairs, at displacement `u` tested with `v`: the
quadrature sum over the owned facets and their linked points. -/
def contactForm (Y : System G) (t : Tracked G) (law : Law) (gamma theta : ℝ) (u v : ℕ → ℝ) : ℝ :=
  ∑ i ∈ range Y.numPairs, ∑ e ∈ range (Y.localFacets i),
    ((Y.facets i)[e]?).elim 0 (fun p => ∑ q ∈ range Y.nq,
      if 0 ≤ Y.map t.cur i (e * Y.nq + q) then
        weightAt Y p.1 p.2 q * (pointAt Y t i e p.1 p.2 q).form law gamma theta
          (jumpAt Y t.cur i e p.1 p.2 u q)
          (fun a b => gradAt Y p.1 p.2 u q a b + (pointAt Y t i e p.1 p.2 q).grad0 a b)
          (jumpAt Y t.cur i e p.1 p.2 v q) (gradAt Y p.1 p.2 v q)
      else 0)

/-- Basis functions sum to one: at the quadrature points of the facets, their derivatives to zero, and at
the contact points found in geometry `g`. -/
def SumsToOne (Y : System G) (g : G) : Prop :=
  ∀ i < Y.numPairs, ∀ e < Y.localFacets i, ∀ cell f, (Y.facets i)[e]? = some (cell, f) → ∀ q < Y.nq,
    ∑ k ∈ range Y.nd, Y.phi (Y.off f + q) k = 1
    ∧ (∀ j < Y.tdim, ∑ k ∈ range Y.nd, Y.dphi j (Y.off f + q) k = 0)
    ∧ (0 ≤ Y.map g i (e * Y.nq + q) → ∑ k ∈ range Y.nd, Y.basis g i (e * Y.nq + q) k = 1)

/-- The contact normals of the current detection have length one at linked points. -/
def UnitNormals (Y : System G) (t : Tracked G) : Prop :=
  ∀ i < Y.numPairs, ∀ e < Y.localFacets i, ∀ q < Y.nq, 0 ≤ Y.map t.cur i (e * Y.nq + q) →
    ∑ a ∈ range Y.gdim, contactNormalAt Y t.cur i e q a ^ 2 = 1

end

end Verif.Spec
