import Verif.Spec.WellPosed

/-!
Specification for C204: when Coulomb friction is small compared with the stiffness of the bodies.
-/

namespace Verif.Spec

open Verif.ContactProblem Finset

noncomputable section

variable {G : Type}

/-- Length of a vector. -/
def vecLength (g : ℕ) (x : ℕ → ℝ) : ℝ := Real.sqrt (∑ a ∈ range g, x a ^ 2)

/-- How strongly friction couples the tangential forces at a point to the normal direction, for jump `J` and gradient
`D` of a displacement: the friction coefficient times `γ / (2 h) |J·n - (h/γ) σ_n| |J_t - θ (h/γ) σ_t|`, and a term for
the change of the contact normal since the last detection, which is zero if the normal is the same. -/
def ContactPoint.coupling (p : ContactPoint) (gamma theta : ℝ) (J : ℕ → ℝ) (D : ℕ → ℕ → ℝ) : ℝ :=
  1 / 2 * (gamma / p.h)
    * (p.fric * |p.dot J - p.h / gamma * p.dot (p.trac D)|
        * vecLength p.g (fun a => p.tang J a - theta * (p.h / gamma) * p.tang (p.trac D) a)
      + |p.dot J| * vecLength p.g (p.tang p.oldNormal)
        * vecLength p.g (fun a => p.tang J a + p.dot J * p.tang p.oldNormal a - p.h / gamma * p.tang (p.trac D) a))

/-- Its quadrature sum over the linked points of the contact surfaces. -/
def frictionCoupling (Y : System G) (t : Tracked G) (gamma theta : ℝ) (v : ℕ → ℝ) : ℝ :=
  ∑ i ∈ range Y.numPairs, ∑ e ∈ range (Y.localFacets i),
    ((Y.facets i)[e]?).elim 0 (fun p => ∑ q ∈ range Y.nq,
      if 0 ≤ Y.map t.cur i (e * Y.nq + q) then
        weightAt Y p.1 p.2 q * (pointAt Y t i e p.1 p.2 q).coupling gamma theta (jumpAt Y t.cur i e p.1 p.2 v q)
          (gradAt Y p.1 p.2 v q)
      else 0)

/-- `Coercive`, with the coupling by friction on the left. -/
def CoulombCoercive (Y : System G) (t : Tracked G) (gamma theta : ℝ) (N : ℕ) (F : Finset ℕ) (K : ℕ → ℕ → ℝ) : Prop :=
  ∀ v : ℕ → ℝ, (∀ d, d ∉ F → v d = 0) → (∃ d, v d ≠ 0) →
    (1 + theta) ^ 2 / (8 * gamma) * tractionSquare Y t .coulomb v + frictionCoupling Y t gamma theta v
      < ∑ d ∈ range N, ∑ c ∈ range N, v d * K d c * v c

/-- The contact normals have length one and are those of the detection before. -/
def NormalsKept (Y : System G) (t : Tracked G) : Prop :=
  UnitNormals Y t ∧ ∀ i < Y.numPairs, ∀ e < Y.localFacets i, ∀ q < Y.nq, 0 ≤ Y.map t.cur i (e * Y.nq + q) →
    ∀ a < Y.gdim, contactNormalAt Y t.prev i e q a = contactNormalAt Y t.cur i e q a

/-- The same call without friction coefficients. -/
def forgetFriction : Op G → Op G
  | .generate a => .generate { a with fric := none }
  | op => op

/-- The same calls, apart from the friction coefficients. -/
def SameButFriction (ops ops' : List (Op G)) : Prop := ops'.map forgetFriction = ops.map forgetFriction

end

end Verif.Spec
