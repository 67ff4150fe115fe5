import Verif.Spec.Elasticity
import Verif.Lib.Arr
import Mathlib.Analysis.Real.Sqrt

/-!
Specification vocabulary for the kernels, independent of the kernel code: the meaning of the
coefficient row of a facet, the dofs a facet couples, and how block matrices act on them.
-/

namespace Verif.Spec

open Finset

noncomputable section

/-- Sizes of a contact facet: quadrature points, scalar dofs per cell, dimension, linked cells for
which there is room in a coefficient row. -/
structure Dims where
  nq : ℕ
  nd : ℕ
  g : ℕ
  ml : ℕ

/-- Start of the gap vectors in a coefficient row (after mu, lambda, friction, h). -/
def Dims.oGap (_ : Dims) : ℕ := 4
/-- Start of the normals. -/
def Dims.oNormal (s : Dims) : ℕ := 4 + s.nq * s.g
/-- Start of the test functions of the linked cells. -/
def Dims.oTest (s : Dims) : ℕ := 4 + 2 * (s.nq * s.g)
/-- Start of the displacement. -/
def Dims.oU (s : Dims) : ℕ := s.oTest + s.ml * s.nd * s.nq * s.g
/-- Start of the displacement gradient. -/
def Dims.oGrad (s : Dims) : ℕ := s.oU + s.nq * s.g
/-- Start of the displacement of the opposite surface. -/
def Dims.oOpp (s : Dims) : ℕ := s.oGrad + s.nq * s.g * s.g
/-- Start of the normals of the previous load step. -/
def Dims.oOld (s : Dims) : ℕ := s.oOpp + s.nq * s.g

/-- Test function `i`, component `n` of link `k` at point `q`. -/
def Dims.test (s : Dims) (c : ℕ → ℝ) (q k i n : ℕ) : ℝ :=
  c (s.oTest + ((k * s.nd + i) * s.nq + q) * s.g + n)

/-- The dofs a facet couples: `W 0` of its own cell, `W (k + 1)` of linked cell `k`; dof
`i * g + n` is component `n` of basis function `i`. A row carries the displacement `W` if its three
displacement slots hold the interpolated displacement, its gradient plus the gradient `G` of the
displacement made in earlier load steps, and the interpolated displacement of the linked cells.
`phi q i`, `dphi q i b` are the basis functions and their physical derivatives at the quadrature
points. -/
structure Carries (s : Dims) (links : ℕ) (phi : ℕ → ℕ → ℝ) (dphi : ℕ → ℕ → ℕ → ℝ)
    (G : ℕ → ℕ → ℕ → ℝ) (c : ℕ → ℝ) (W : ℕ → ℕ → ℝ) : Prop where
  u : ∀ q a, q < s.nq → a < s.g →
    c (s.oU + q * s.g + a) = ∑ i ∈ range s.nd, phi q i * W 0 (i * s.g + a)
  grad : ∀ q a b, q < s.nq → a < s.g → b < s.g →
    c (s.oGrad + (q * s.g + a) * s.g + b) = ∑ i ∈ range s.nd, dphi q i b * W 0 (i * s.g + a) + G q a b
  opp : ∀ q a, q < s.nq → a < s.g →
    c (s.oOpp + q * s.g + a) =
      ∑ k ∈ range links, ∑ i ∈ range s.nd, s.test c q k i a * W (k + 1) (i * s.g + a)

/-- Two rows agree except possibly in the displacement slots. -/
def SameData (s : Dims) (c c' : ℕ → ℝ) : Prop := ∀ m, m < s.oU ∨ s.oOld ≤ m → c m = c' m

/-- At point `q` only one linked cell has non-zero test functions. -/
def OneLink (s : Dims) (links : ℕ) (c : ℕ → ℝ) (q : ℕ) : Prop :=
  ∃ k0, ∀ k i n, k < links → k ≠ k0 → i < s.nd → n < s.g → s.test c q k i n = 0

/-- Outward normal used for the contact condition: minus the packed normal. -/
def Dims.normal (s : Dims) (c : ℕ → ℝ) (q a : ℕ) : ℝ := -c (s.oNormal + q * s.g + a)

/-- Normal of the previous step. -/
def Dims.oldNormal (s : Dims) (c : ℕ → ℝ) (q a : ℕ) : ℝ := -c (s.oOld + q * s.g + a)

/-- Jump of the displacement `u - u_opposite`. -/
def Dims.jump (s : Dims) (c : ℕ → ℝ) (q a : ℕ) : ℝ :=
  c (s.oU + q * s.g + a) - c (s.oOpp + q * s.g + a)

/-- Traction on the physical facet with outer normal `np`. -/
def Dims.trac (s : Dims) (c : ℕ → ℝ) (np : ℕ → ℝ) (q a : ℕ) : ℝ :=
  traction s.g (c 0) (c 1) (fun a b => c (s.oGrad + (q * s.g + a) * s.g + b)) np a

/-- `x · n`. -/
def Dims.dotN (s : Dims) (c : ℕ → ℝ) (q : ℕ) (x : ℕ → ℝ) : ℝ :=
  ∑ a ∈ range s.g, x a * s.normal c q a

/-- Packed normal gap. -/
def Dims.gapN (s : Dims) (c : ℕ → ℝ) (q : ℕ) : ℝ :=
  s.dotN c q (fun a => c (s.oGap + q * s.g + a))

/-- Argument of the positive part in the contact condition:
`[u]·n - g - (h / γ) σ(u)n_phys · n`. -/
def Dims.pressure (s : Dims) (c w : ℕ → ℝ) (np : ℕ → ℝ) (q : ℕ) : ℝ :=
  s.dotN c q (s.jump c q) - s.gapN c q - c 3 / w 0 * s.dotN c q (s.trac c np q)

/-- Tangential part of a vector. -/
def Dims.tang (s : Dims) (c : ℕ → ℝ) (q : ℕ) (x : ℕ → ℝ) (a : ℕ) : ℝ :=
  x a - s.dotN c q x * s.normal c q a

/-- Argument of the projection in the Tresca condition. -/
def Dims.slip (s : Dims) (c w : ℕ → ℝ) (np : ℕ → ℝ) (q a : ℕ) : ℝ :=
  s.tang c q (s.jump c q) a - c 3 / w 0 * s.tang c q (s.trac c np q) a

/-- Argument of the projection in the Coulomb condition: the slip also accounts for the change of
the normal since the previous step. -/
def Dims.slipC (s : Dims) (c w : ℕ → ℝ) (np : ℕ → ℝ) (q a : ℕ) : ℝ :=
  s.slip c w np q a
    - (s.gapN c q - s.dotN c q (s.jump c q)) * s.tang c q (s.oldNormal c q) a

/-- The contact normal has length one. -/
def Dims.UnitNormal (s : Dims) (c : ℕ → ℝ) (q : ℕ) : Prop :=
  ∑ a ∈ range s.g, s.normal c q a ^ 2 = 1

/-- Row `r` of block row `B` of the element matrices applied to `δ`: block 0 is the cell with
itself, blocks `3k+1`, `3k+2`, `3k+3` couple cell and linked cell `k`, linked cell and cell, linked
cell and itself. All blocks are `N × N`, row major. -/
def blockApply (N links : ℕ) (A : Arr (ℕ × ℕ)) (δ : ℕ → ℕ → ℝ) (B r : ℕ) : ℝ :=
  match B with
  | 0 => ∑ s ∈ range N, A (0, r * N + s) * δ 0 s
      + ∑ k ∈ range links, ∑ s ∈ range N, A (3 * k + 1, r * N + s) * δ (k + 1) s
  | k + 1 => ∑ s ∈ range N, A (3 * k + 2, r * N + s) * δ 0 s
      + ∑ s ∈ range N, A (3 * k + 3, r * N + s) * δ (k + 1) s

/-! ### weak forms -/

/-- Jump of the virtual displacement of dof `(B, i, n)`: the basis function itself if the dof belongs
to the cell of the facet, minus the packed test function if it belongs to a linked cell. -/
def Dims.vJump (s : Dims) (phi : ℕ → ℕ → ℝ) (c : ℕ → ℝ) (q B i n a : ℕ) : ℝ :=
  if a = n then (match B with
    | 0 => phi q i
    | k + 1 => -s.test c q k i n) else 0

/-- Traction of the virtual displacement of dof `(B, i, n)` on the facet: that of the basis function
for dofs of the cell, zero for dofs of linked cells. -/
def Dims.vTrac (s : Dims) (dphi : ℕ → ℕ → ℕ → ℝ) (c : ℕ → ℝ) (np : ℕ → ℝ) (q B i n a : ℕ) : ℝ :=
  match B with
  | 0 => traction s.g (c 0) (c 1) (fun a b => if a = n then dphi q i b else 0) np a
  | _ + 1 => 0

/-- Frictionless Nitsche form of one surface of a contact pair (each surface contributes one half),
integrand at point `q` tested with dof `(B, i, n)`:
`γ/(2h) [P(u)]₊ (v_n - θ h/γ σ_n(v)) - θ h/(2γ) σ_n(u) σ_n(v)`. `w 0` is γ, `w 1` is θ, `c 3` is
h. -/
def Dims.normalForm (s : Dims) (phi : ℕ → ℕ → ℝ) (dphi : ℕ → ℕ → ℕ → ℝ) (c w np : ℕ → ℝ)
    (q B i n : ℕ) : ℝ :=
  1 / 2 * (w 0 / c 3) * max 0 (s.pressure c w np q)
      * (s.dotN c q (s.vJump phi c q B i n)
        - w 1 * (c 3 / w 0) * s.dotN c q (s.vTrac dphi c np q B i n))
    - 1 / 2 * w 1 * (c 3 / w 0) * s.dotN c q (s.trac c np q)
      * s.dotN c q (s.vTrac dphi c np q B i n)

/-- Euclidean projection of a vector onto the ball of radius `α`. -/
def ball (g : ℕ) (x : ℕ → ℝ) (α : ℝ) (a : ℕ) : ℝ :=
  if Real.sqrt (∑ b ∈ range g, x b ^ 2) ≤ α then x a
  else α * x a / Real.sqrt (∑ b ∈ range g, x b ^ 2)

/-- Friction form of one surface with projected slip `p`:
`γ/(2h) p · (v_t - θ h/γ σ_t(v)) - θ h/(2γ) σ_t(u) · σ_t(v)`. -/
def Dims.frictionForm (s : Dims) (phi : ℕ → ℕ → ℝ) (dphi : ℕ → ℕ → ℕ → ℝ) (c w np : ℕ → ℝ)
    (p : ℕ → ℝ) (q B i n : ℕ) : ℝ :=
  1 / 2 * (w 0 / c 3) * ∑ a ∈ range s.g, p a * (s.tang c q (s.vJump phi c q B i n) a
        - w 1 * (c 3 / w 0) * s.tang c q (s.vTrac dphi c np q B i n) a)
    - 1 / 2 * w 1 * (c 3 / w 0) * ∑ a ∈ range s.g, s.tang c q (s.trac c np q) a
      * s.tang c q (s.vTrac dphi c np q B i n) a

/-! ### rigid translations and full linking -/

/-- Basis functions sum to one and their gradients to zero. -/
def PartitionOfUnity (s : Dims) (phi : ℕ → ℕ → ℝ) (dphi : ℕ → ℕ → ℕ → ℝ) (q : ℕ) : Prop :=
  ∑ i ∈ range s.nd, phi q i = 1 ∧ ∀ b, b < s.g → ∑ i ∈ range s.nd, dphi q i b = 0

/-- Point `q` is linked: the packed test functions of the linked cells sum to one. -/
def FullyLinked (s : Dims) (links : ℕ) (c : ℕ → ℝ) (q : ℕ) : Prop :=
  ∀ n, n < s.g → ∑ k ∈ range links, ∑ i ∈ range s.nd, s.test c q k i n = 1

/-- Virtual work of the element vectors on the translation `v` of the cell and all linked cells. -/
def translationWork (s : Dims) (links : ℕ) (b : Arr (ℕ × ℕ)) (v : ℕ → ℝ) : ℝ :=
  ∑ B ∈ range (links + 1), ∑ i ∈ range s.nd, ∑ n ∈ range s.g, b (B, i * s.g + n) * v n

/-! ### sums of point contributions -/

/-- A kernel called with a list of quadrature points adds the sum of the results of single point
calls on zeroed arrays; so permuting the list or splitting it over several calls changes nothing. -/
structure SumOfPoints (kernel : List ℕ → Arr (ℕ × ℕ) → Arr (ℕ × ℕ)) : Prop where
  sum : ∀ qs a m, kernel qs a m = a m + (qs.map (fun q => kernel [q] 0 m)).sum
  perm : ∀ qs qs', qs.Perm qs' → kernel qs = kernel qs'
  split : ∀ qs qs' a, kernel (qs ++ qs') a = kernel qs' (kernel qs a)

end

end Verif.Spec
