import Verif.Spec.System
import Verif.Spec.Geometry

/-!
Specification for C133: a contact problem seen from another coordinate system.
-/

namespace Verif.Spec

open Verif.ContactProblem Verif.Geometry Finset

noncomputable section

variable {G : Type}

/-- `Qᵀ Q = 1` for a matrix of `g` rows and columns: a rotation or a reflection. -/
def Orthogonal (g : ℕ) (Q : ℕ → ℕ → ℝ) : Prop :=
  ∀ a < g, ∀ b < g, ∑ c ∈ range g, Q c a * Q c b = if a = b then 1 else 0

/-- `Q x`. -/
def rotVec (g : ℕ) (Q : ℕ → ℕ → ℝ) (x : ℕ → ℝ) (a : ℕ) : ℝ := ∑ c ∈ range g, Q a c * x c

/-- `Q D Qᵀ`. -/
def rotGrad (g : ℕ) (Q : ℕ → ℕ → ℝ) (D : ℕ → ℕ → ℝ) (a b : ℕ) : ℝ :=
  ∑ c ∈ range g, ∑ d ∈ range g, Q a c * Q b d * D c d

/-- The dofs of a rotated displacement: component `a` of node `n` is dof `g * n + a`. -/
def rotDofs (g : ℕ) (Q : ℕ → ℕ → ℝ) (u : ℕ → ℝ) (d : ℕ) : ℝ := rotVec g Q (fun c => u (g * (d / g) + c)) (d % g)

/-- Rows of vectors, one for every quadrature point. -/
def rotRows (g : ℕ) (Q : ℕ → ℕ → ℝ) (m : Mat) : Mat :=
  ⟨m.rows, m.cols, fun e k => rotVec g Q (fun c => m.v e (k / g * g + c)) (k % g)⟩

/-- Rows of gradients, one for every quadrature point. -/
def rotGradRows (g : ℕ) (Q : ℕ → ℕ → ℝ) (m : Mat) : Mat :=
  ⟨m.rows, m.cols, fun e k => rotGrad g Q (fun c d => m.v e ((k / g / g * g + c) * g + d)) (k / g % g) (k % g)⟩

/-- The same problem in a coordinate system which is rotated (or reflected) by `Q` and shifted by `s`: the
nodes, gap vectors and normals are rotated; the elements, facets and contact points are the same. -/
def rotated (Q : ℕ → ℕ → ℝ) (s : ℕ → ℝ) (Y : System G) : System G := { Y with
  geo := { Y.geo with
    x := fun k => if k % 3 < Y.gdim then s (k % 3) + rotVec Y.gdim Q (fun c => Y.geo.x (3 * (k / 3) + c)) (k % 3)
      else Y.geo.x k }
  gap := fun g i => rotRows Y.gdim Q (Y.gap g i)
  nx := fun g i => rotRows Y.gdim Q (Y.nx g i)
  ny := fun g i => rotRows Y.gdim Q (Y.ny g i) }

/-- The same displacement increment, seen from the rotated coordinate system. -/
def rotDu (g : ℕ) (Q : ℕ → ℕ → ℝ) (du : Du G) : Du G where
  val := fun i => rotRows g Q (du.val i)
  grad := fun i => rotGradRows g Q (du.grad i)
  opp := fun x i => rotRows g Q (du.opp x i)

/-- The same calls, seen from the rotated coordinate system: displacements and their gradients are rotated. -/
def rotCall (g : ℕ) (Q : ℕ → ℕ → ℝ) : Op G → Op G
  | .generate a => .generate { a with
      u := a.u.map (fun u i => rotGradRows g Q (u i))
      du := a.du.map (rotDu g Q) }
  | .updateData du => .updateData (rotDu g Q du)
  | .updateDetection move gradU => .updateDetection move (fun i => rotGradRows g Q (gradU i))
  | .updateNitsche gamma theta => .updateNitsche gamma theta

/-- `K` is the pseudo-inverse of the matrix `J` with `g` rows and `t` columns: `K J = 1` and `J K` is
symmetric. -/
def PseudoInverse (g t : ℕ) (K J : ℕ → ℕ → ℝ) : Prop :=
  LeftInverse g t K J ∧ ∀ a < g, ∀ b < g, ∑ c ∈ range t, J a c * K c b = ∑ c ∈ range t, J b c * K c a

/-- What the library guarantees: `inv` returns the (pseudo-)inverse of every Jacobian that has a left
inverse, the surface factor of a facet depends on lengths and angles only, and the derivatives of the
coordinate element's basis functions sum to zero. -/
structure GeometryContract (Y : System G) : Prop where
  inv : ∀ J K : ℕ → ℕ → ℝ, LeftInverse Y.gdim Y.tdim K J → PseudoInverse Y.gdim Y.tdim (Y.inv J) J
  det : ∀ (f : ℕ) (J J' : ℕ → ℕ → ℝ), (∀ a < Y.tdim, ∀ b < Y.tdim,
    ∑ c ∈ range Y.gdim, J c a * J c b = ∑ c ∈ range Y.gdim, J' c a * J' c b) → Y.det f J = Y.det f J'
  sums : ∀ r, ∀ j < Y.tdim, ∑ n ∈ range Y.geo.nx, Y.cphi r (j + 1) n = 0

/-- The cells at the owned facets are not degenerate: their Jacobian has a left inverse. -/
def CellsInvertible (Y : System G) : Prop :=
  ∀ i < Y.numPairs, ∀ e < Y.localFacets i, ∀ cell f, (Y.facets i)[e]? = some (cell, f) → ∀ q < Y.nq,
    ∃ K, LeftInverse Y.gdim Y.tdim K (jacobianAt Y cell (Y.off f + q))

end

end Verif.Spec
