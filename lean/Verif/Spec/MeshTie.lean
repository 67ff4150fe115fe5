import Verif.Spec.Kernels

/-!
Specification vocabulary for the mesh tie kernels: layout of a coefficient row, the dofs it carries,
and the Nitsche forms for tied elasticity and heat conduction.
-/

namespace Verif.Spec

open Finset

noncomputable section

/-- Sizes of a mesh tie row: quadrature points, scalar dofs per cell, components (`g` for
elasticity, 1 for Poisson), dimension, room for links, and number of leading scalars. -/
structure TieDims where
  nq : ℕ
  nd : ℕ
  bs : ℕ
  g : ℕ
  ml : ℕ
  n0 : ℕ

/-- Start of the test functions of the linked cells. -/
def TieDims.oTest (s : TieDims) : ℕ := s.n0
/-- Start of the gradients of the test functions. -/
def TieDims.oGTest (s : TieDims) : ℕ := s.oTest + s.ml * s.nd * s.nq * s.bs
/-- Start of the solution. -/
def TieDims.oU (s : TieDims) : ℕ := s.oGTest + s.ml * s.nd * s.nq * s.g
/-- Start of the gradient of the solution. -/
def TieDims.oGrad (s : TieDims) : ℕ := s.oU + s.nq * s.bs
/-- Start of the solution on the opposite surface. -/
def TieDims.oOpp (s : TieDims) : ℕ := s.oGrad + s.nq * s.bs * s.g
/-- Start of the gradient on the opposite surface. -/
def TieDims.oGOpp (s : TieDims) : ℕ := s.oOpp + s.nq * s.bs
/-- Start of the temperature (thermo-elasticity only). -/
def TieDims.oTemp (s : TieDims) : ℕ := s.oGOpp + s.nq * s.bs * s.g
/-- Start of the temperature on the opposite surface. -/
def TieDims.oTempOpp (s : TieDims) : ℕ := s.oTemp + s.nq

/-- Test function `i`, component `n` of link `k` at point `q`. -/
def TieDims.test (s : TieDims) (c : ℕ → ℝ) (q k i n : ℕ) : ℝ :=
  c (s.oTest + ((k * s.nd + i) * s.nq + q) * s.bs + n)

/-- Derivative in direction `b` of the scalar basis function `i` of link `k` at point `q`. -/
def TieDims.gtest (s : TieDims) (c : ℕ → ℝ) (q k i b : ℕ) : ℝ :=
  c (s.oGTest + ((k * s.nd + i) * s.nq + q) * s.g + b)

/-- The row carries the dof vectors `W` (`W 0` of the cell, `W (k+1)` of linked cell `k`). -/
structure TieCarries (s : TieDims) (links : ℕ) (phi : ℕ → ℕ → ℝ) (dphi : ℕ → ℕ → ℕ → ℝ)
    (c : ℕ → ℝ) (W : ℕ → ℕ → ℝ) : Prop where
  u : ∀ q a, q < s.nq → a < s.bs →
    c (s.oU + q * s.bs + a) = ∑ i ∈ range s.nd, phi q i * W 0 (i * s.bs + a)
  grad : ∀ q a b, q < s.nq → a < s.bs → b < s.g →
    c (s.oGrad + (q * s.bs + a) * s.g + b) = ∑ i ∈ range s.nd, dphi q i b * W 0 (i * s.bs + a)
  opp : ∀ q a, q < s.nq → a < s.bs →
    c (s.oOpp + q * s.bs + a) =
      ∑ k ∈ range links, ∑ i ∈ range s.nd, s.test c q k i a * W (k + 1) (i * s.bs + a)
  gopp : ∀ q a b, q < s.nq → a < s.bs → b < s.g →
    c (s.oGOpp + (q * s.bs + a) * s.g + b) =
      ∑ k ∈ range links, ∑ i ∈ range s.nd, s.gtest c q k i b * W (k + 1) (i * s.bs + a)

/-- Two rows agree in everything the matrix depends on: all data before the solution slots. -/
def TieSame (s : TieDims) (c c' : ℕ → ℝ) : Prop := ∀ m, m < s.oU → c m = c' m

/-- At point `q` only one linked cell has non-zero test functions or gradients. -/
def TieOneLink (s : TieDims) (links : ℕ) (c : ℕ → ℝ) (q : ℕ) : Prop :=
  ∃ k0, ∀ k i, k < links → k ≠ k0 → i < s.nd →
    (∀ n, n < s.bs → s.test c q k i n = 0) ∧ ∀ b, b < s.g → s.gtest c q k i b = 0

/-- Jump of the solution. -/
def TieDims.jump (s : TieDims) (c : ℕ → ℝ) (q a : ℕ) : ℝ :=
  c (s.oU + q * s.bs + a) - c (s.oOpp + q * s.bs + a)

/-- Mean of the gradients of both sides, component `a`, direction `b`. -/
def TieDims.meanGrad (s : TieDims) (c : ℕ → ℝ) (q a b : ℕ) : ℝ :=
  (c (s.oGrad + (q * s.bs + a) * s.g + b) + c (s.oGOpp + (q * s.bs + a) * s.g + b)) / 2

/-- Jump of the virtual solution of dof `(B, i, n)`. -/
def TieDims.vJump (s : TieDims) (phi : ℕ → ℕ → ℝ) (c : ℕ → ℝ) (q B i n a : ℕ) : ℝ :=
  if a = n then (match B with
    | 0 => phi q i
    | k + 1 => -s.test c q k i n) else 0

/-- Mean gradient of the virtual solution of dof `(B, i, n)`, component `a`, direction `b`. -/
def TieDims.vMeanGrad (s : TieDims) (dphi : ℕ → ℕ → ℕ → ℝ) (c : ℕ → ℝ) (q B i n a b : ℕ) : ℝ :=
  if a = n then (match B with
    | 0 => dphi q i b / 2
    | k + 1 => s.gtest c q k i b / 2) else 0

/-- Nitsche coupling of two elastic bodies, one surface's half, at point `q` tested with dof
`(B, i, n)`: `(-{σ(u)n} + γ/h [u]) · [v] - θ {σ(v)n} · [u]`, all times one half. Leading scalars
`c 0 = μ`, `c 1 = λ`, `c 2 = h`; `w 0 = γ`, `w 1 = θ`. -/
def TieDims.elasticForm (s : TieDims) (phi : ℕ → ℕ → ℝ) (dphi : ℕ → ℕ → ℕ → ℝ) (c w np : ℕ → ℝ)
    (q B i n : ℕ) : ℝ :=
  1 / 2 * (∑ a ∈ range s.g, (-traction s.g (c 0) (c 1) (s.meanGrad c q) np a
        + w 0 / c 2 * s.jump c q a) * s.vJump phi c q B i n a
      - w 1 * ∑ a ∈ range s.g, traction s.g (c 0) (c 1) (s.vMeanGrad dphi c q B i n) np a
        * s.jump c q a)

/-- Nitsche coupling for heat conduction with conductivity `c 1` (already multiplied with the time
step), `c 0 = h`:
`κ ((-{∇T}·n + γ/h [T]) [v] - θ {∇v}·n [T])`, times one half. -/
def TieDims.heatForm (s : TieDims) (phi : ℕ → ℕ → ℝ) (dphi : ℕ → ℕ → ℕ → ℝ) (c w np : ℕ → ℝ)
    (q B i : ℕ) : ℝ :=
  1 / 2 * c 1 * ((-(∑ b ∈ range s.g, s.meanGrad c q 0 b * np b) + w 0 / c 0 * s.jump c q 0)
        * s.vJump phi c q B i 0 0
      - w 1 * (∑ b ∈ range s.g, s.vMeanGrad dphi c q B i 0 0 b * np b) * s.jump c q 0)

/-- Thermal stress `α (3λ + 2μ) {T} n · [v]`, one half per surface; `c 3 = α`. -/
def TieDims.thermalForm (s : TieDims) (phi : ℕ → ℕ → ℝ) (c np : ℕ → ℝ) (q B i n : ℕ) : ℝ :=
  1 / 2 * (c 3 * (3 * c 1 + 2 * c 0)) * ((c (s.oTemp + q) + c (s.oTempOpp + q)) / 2)
    * ∑ a ∈ range s.g, np a * s.vJump phi c q B i n a

/-- The block matrix is symmetric: diagonal blocks are symmetric, off-diagonal blocks are each
other's transpose. -/
def BlockSymmetric (N links : ℕ) (A : Arr (ℕ × ℕ)) : Prop :=
  ∀ r s, r < N → s < N →
    A (0, r * N + s) = A (0, s * N + r)
    ∧ ∀ k, k < links → A (3 * k + 1, r * N + s) = A (3 * k + 2, s * N + r)
      ∧ A (3 * k + 3, r * N + s) = A (3 * k + 3, s * N + r)

/-- Basis functions of the cell and packed test functions of the linked cells sum to one, their
gradients to zero. -/
def TieLinked (s : TieDims) (links : ℕ) (phi : ℕ → ℕ → ℝ) (dphi : ℕ → ℕ → ℕ → ℝ) (c : ℕ → ℝ)
    (q : ℕ) : Prop :=
  ∑ i ∈ range s.nd, phi q i = 1 ∧ (∀ b, b < s.g → ∑ i ∈ range s.nd, dphi q i b = 0)
  ∧ (∀ n, n < s.bs → ∑ k ∈ range links, ∑ i ∈ range s.nd, s.test c q k i n = 1)
  ∧ ∀ b, b < s.g → ∑ k ∈ range links, ∑ i ∈ range s.nd, s.gtest c q k i b = 0

/-- Virtual work of element vectors on a translation. -/
def tieTranslationWork (s : TieDims) (links : ℕ) (b : Arr (ℕ × ℕ)) (v : ℕ → ℝ) : ℝ :=
  ∑ B ∈ range (links + 1), ∑ i ∈ range s.nd, ∑ n ∈ range s.bs, b (B, i * s.bs + n) * v n

end

end Verif.Spec
