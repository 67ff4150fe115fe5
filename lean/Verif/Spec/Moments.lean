import Verif.Spec.SystemTangent

/-!
Specification for C169 and C170: moments of the assembled contact forces, rigid motions.
-/

namespace Verif.Spec

open Verif.ContactProblem Verif.Kernels Finset

noncomputable section

variable {G : Type}

/-- The moment about the origin, in the plane of axes `i` and `j`, of forces `b` at `K` nodes with coordinates `x`:
component `a` of node `k` has number `g * k + a`. -/
def moment (g K : ℕ) (x b : ℕ → ℝ) (i j : ℕ) : ℝ :=
  ∑ k ∈ range K, (x (g * k + i) * b (g * k + j) - x (g * k + j) * b (g * k + i))

/-- A statement about all linked points of the owned facets: pair, facet, its cell and local facet, point. -/
def AtLinked (Y : System G) (t : Tracked G) (P : ℕ → ℕ → ℕ → ℕ → ℕ → Prop) : Prop :=
  ∀ i < Y.numPairs, ∀ e < Y.localFacets i, ∀ cell f, (Y.facets i)[e]? = some (cell, f) → ∀ q < Y.nq,
    0 ≤ Y.map t.cur i (e * Y.nq + q) → P i e cell f q

/-- `x` are the coordinates of the nodes when contact was detected: the gap vector is the contact point minus the
quadrature point (C30). -/
def NodesAt (Y : System G) (t : Tracked G) (x : ℕ → ℝ) : Prop :=
  AtLinked Y t (fun i e cell f q => ∀ a < Y.gdim,
    (pointAt Y t i e cell f q).gap a = oppositeAt Y t.cur i e x q a - valueAt Y cell f x q a)

/-- `x` are the coordinates of the nodes of the mesh: their gradient is the identity. -/
def NodesOfMesh (Y : System G) (t : Tracked G) (x : ℕ → ℝ) : Prop :=
  AtLinked Y t (fun _ _ cell f q => ∀ a < Y.gdim, ∀ b < Y.gdim, gradAt Y cell f x q a b = if a = b then 1 else 0)

/-- At linked points the gap vector is a multiple of the contact normal. -/
def GapAlongNormal (Y : System G) (t : Tracked G) : Prop :=
  AtLinked Y t (fun i e cell f q => ∃ s, ∀ a < Y.gdim,
    (pointAt Y t i e cell f q).gap a = s * (pointAt Y t i e cell f q).normal a)

/-- At linked points contact point and quadrature point are the same. -/
def NoGap (Y : System G) (t : Tracked G) : Prop :=
  AtLinked Y t (fun i e cell f q => ∀ a < Y.gdim, (pointAt Y t i e cell f q).gap a = 0)

/-- The contact force of a point per unit of area: the pressure along the normal and, with friction, the tangential
part of the projected slip. -/
def ContactPoint.force (p : ContactPoint) (law : Law) (gamma : ℝ) (J : ℕ → ℝ) (D : ℕ → ℕ → ℝ) (a : ℕ) : ℝ :=
  1 / 2 * (gamma / p.h) * (max 0 (p.pressure gamma J D) * p.normal a
    + if law = .frictionless then 0 else p.tang (p.projected law gamma J D) a)

/-- The sum of the moments gap × force over all linked points. -/
def gapMoment (Y : System G) (t : Tracked G) (law : Law) (gamma : ℝ) (u : ℕ → ℝ) (i j : ℕ) : ℝ :=
  ∑ n ∈ range Y.numPairs, ∑ e ∈ range (Y.localFacets n),
    ((Y.facets n)[e]?).elim 0 (fun c => ∑ q ∈ range Y.nq,
      if 0 ≤ Y.map t.cur n (e * Y.nq + q) then
        let p := pointAt Y t n e c.1 c.2 q
        let F := p.force law gamma (jumpAt Y t.cur n e c.1 c.2 u q)
          (fun a b => gradAt Y c.1 c.2 u q a b + p.grad0 a b)
        weightAt Y c.1 c.2 q * (p.gap i * F j - p.gap j * F i)
      else 0)

/-- `Wᵀ = -W`. -/
def Skew (g : ℕ) (W : ℕ → ℕ → ℝ) : Prop := ∀ a < g, ∀ b < g, W a b = -W b a

/-- The dofs of the rigid motion `c + W x` (for small rotations) of nodes with coordinates `x`. -/
def rigidMotion (g : ℕ) (W : ℕ → ℕ → ℝ) (c x : ℕ → ℝ) (d : ℕ) : ℝ :=
  c (d % g) + ∑ b ∈ range g, W (d % g) b * x (g * (d / g) + b)

end

end Verif.Spec
