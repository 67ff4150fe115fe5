import Verif.Model.Comparison

/-!
Specification for C216: the norm of the difference of two solutions.
-/

namespace Verif.Comparison

open Finset

/-- Every cell of the mesh is owned by one process. -/
structure Owned (L : Level) (cells : Finset ℕ) : Prop where
  nodup : ∀ p < L.procs, (L.cells p).Nodup
  once : ∀ p < L.procs, ∀ q < L.procs, p ≠ q → ∀ c ∈ L.cells p, c ∉ L.cells q
  all : ∀ c, c ∈ cells ↔ ∃ p < L.procs, c ∈ L.cells p

noncomputable section

/-- Norm of the function with coefficients `w` in L² of the whole mesh, by quadrature. -/
def l2norm (L : Level) (cells : Finset ℕ) (w : ℕ → ℕ → ℝ) : ℝ :=
  Real.sqrt (∑ c ∈ cells, ∑ q ∈ range L.nq, L.weight c q *
    ∑ k ∈ range L.gdim, (∑ j ∈ range L.ndofs, L.phi c q j * w (L.dof c j) k) ^ 2)

/-- Difference of two functions. -/
def diff (u1 u2 : ℕ → ℕ → ℝ) (d k : ℕ) : ℝ := u1 d k - u2 d k

end

end Verif.Comparison
