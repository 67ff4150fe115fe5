import Verif.Spec.Rotation
import Verif.Spec.SystemTangent

/-!
Specification for C153: a contact problem in other units of length and force.
-/

namespace Verif.Spec

open Verif.ContactProblem Finset

noncomputable section

variable {G : Type}

/-- All entries times `a`. -/
def Mat.times (a : ℝ) (m : Mat) : Mat := ⟨m.rows, m.cols, fun e k => a * m.v e k⟩

/-- The same problem with another unit of length: coordinates and gap vectors are `a` times as large; the
elements, facets, contact points and normals are the same. -/
def inUnits (a : ℝ) (Y : System G) : System G := { Y with
  geo := { Y.geo with x := fun k => a * Y.geo.x k }
  gap := fun g i => Mat.times a (Y.gap g i) }

/-- A displacement increment is a length, its gradient has no unit. -/
def duInUnits (a : ℝ) (du : Du G) : Du G where
  val := fun i => Mat.times a (du.val i)
  grad := du.grad
  opp := fun x i => Mat.times a (du.opp x i)

/-- The unit of the friction coefficient: Tresca's is a stress, Coulomb's has none. -/
def frictionUnit (law : Law) (k : ℝ) : ℝ := if law = .tresca then k else 1

/-- The same calls with a unit of length in which lengths are `a` times as large and a unit of stress in
which stresses are `k` times as large.  Lamé parameters and Nitsche's parameter are stresses, the mesh size
is a length. -/
def callInUnits (law : Law) (a k : ℝ) : Op G → Op G
  | .generate c => .generate { c with
      mu := c.mu.map (fun m i => Mat.times k (m i))
      lam := c.lam.map (fun m i => Mat.times k (m i))
      fric := c.fric.map (fun m i => Mat.times (frictionUnit law k) (m i))
      du := c.du.map (duInUnits a)
      h := fun i => Mat.times a (c.h i)
      gamma := k * c.gamma }
  | .updateData du => .updateData (duInUnits a du)
  | .updateDetection move gradU => .updateDetection move gradU
  | .updateNitsche gamma theta => .updateNitsche (k * gamma) theta

/-- What the library guarantees: the surface factor of a facet of dimension `tdim - 1` is an area. -/
def SurfaceFactorIsArea (Y : System G) : Prop :=
  ∀ (f : ℕ) (a : ℝ) (J J' : ℕ → ℕ → ℝ), 0 < a → (∀ i < Y.gdim, ∀ j < Y.tdim, J' i j = a * J i j) →
    Y.det f J' = a ^ (Y.tdim - 1) * Y.det f J

end

end Verif.Spec
