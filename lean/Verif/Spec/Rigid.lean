import Verif.Spec.Elasticity

/-! Specification vocabulary for contact with a rigid surface. -/

namespace Verif.Spec

open Finset

noncomputable section

/-- Sizes: quadrature points, scalar dofs per cell, dimension. -/
structure RigidDims where
  nq : ℕ
  nd : ℕ
  g : ℕ

/-- A row holds `mu, lambda, h`, then the gap, the displacement, its gradient and the normals of the
rigid surface at all points. -/
def RigidDims.oGap (_ : RigidDims) : ℕ := 3
def RigidDims.oU (s : RigidDims) : ℕ := s.oGap + s.nq * s.g
def RigidDims.oGrad (s : RigidDims) : ℕ := s.oU + s.nq * s.g
def RigidDims.oNormal (s : RigidDims) : ℕ := s.oGrad + s.nq * s.g * s.g

/-- The row carries the displacement with dofs `W`. -/
structure RigidCarries (s : RigidDims) (phi : ℕ → ℕ → ℝ) (dphi : ℕ → ℕ → ℕ → ℝ) (c : ℕ → ℝ)
    (W : ℕ → ℝ) : Prop where
  u : ∀ q a, q < s.nq → a < s.g →
    c (s.oU + q * s.g + a) = ∑ i ∈ range s.nd, phi q i * W (i * s.g + a)
  grad : ∀ q a b, q < s.nq → a < s.g → b < s.g →
    c (s.oGrad + (q * s.g + a) * s.g + b) = ∑ i ∈ range s.nd, dphi q i b * W (i * s.g + a)

/-- Two rows agree except possibly in the displacement slots. -/
def RigidSame (s : RigidDims) (c c' : ℕ → ℝ) : Prop := ∀ m, m < s.oU ∨ s.oNormal ≤ m → c m = c' m

/-- Normal used for the contact condition: minus the surface normal, a constant passed in `w` after
gamma and theta, or the packed one. -/
def RigidDims.normal (s : RigidDims) (const : Bool) (c w : ℕ → ℝ) (q a : ℕ) : ℝ :=
  if const then -w (a + 2) else -c (s.oNormal + q * s.g + a)

/-- Product with the normal. -/
def RigidDims.dotN (s : RigidDims) (const : Bool) (c w : ℕ → ℝ) (q : ℕ) (x : ℕ → ℝ) : ℝ :=
  ∑ a ∈ range s.g, x a * s.normal const c w q a

/-- Traction of the displacement. -/
def RigidDims.trac (s : RigidDims) (c np : ℕ → ℝ) (q a : ℕ) : ℝ :=
  traction s.g (c 0) (c 1) (fun x y => c (s.oGrad + (q * s.g + x) * s.g + y)) np a

/-- Contact switch: `h/γ σ(u)n·n_s + (gap - u)·n_s`. -/
def RigidDims.pressure (s : RigidDims) (const : Bool) (c w np : ℕ → ℝ) (q : ℕ) : ℝ :=
  c 2 / w 0 * s.dotN const c w q (s.trac c np q)
    + (s.dotN const c w q (fun a => c (s.oGap + q * s.g + a))
      - s.dotN const c w q (fun a => c (s.oU + q * s.g + a)))

/-- Integrand of the Nitsche form for dof `(i, n)`:
`-θ h/γ σ_n(v) σ_n(u) + [h/γ σ_n(u) + gap_n - u_n]_- (θ σ_n(v) - γ/h v_n)`. -/
def RigidDims.form (s : RigidDims) (const : Bool) (phi : ℕ → ℕ → ℝ) (dphi : ℕ → ℕ → ℕ → ℝ)
    (c w np : ℕ → ℝ) (q i n : ℕ) : ℝ :=
  let sv := s.dotN const c w q
    (traction s.g (c 0) (c 1) (fun a b => if a = n then dphi q i b else 0) np)
  let vn := s.dotN const c w q (fun a => if a = n then phi q i else 0);
  -w 1 * (c 2 / w 0) * sv * s.dotN const c w q (s.trac c np q)
    + min 0 (s.pressure const c w np q) * (w 1 * sv - w 0 / c 2 * vn)

end

end Verif.Spec
