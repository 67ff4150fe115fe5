import Mathlib.Data.Real.Basic
import Mathlib.Algebra.BigOperators.Group.Finset.Basic

/-! Specifications for assembly (C43–C45, C53). -/

namespace Verif.Spec

open Finset

/-- `cells` lists, in increasing order and without repetition, the cells a facet is linked to: its
links are the non-negative entries of `connected`, and `cellOf f` is the cell of facet `f`. -/
def IsLinkedCells (cellOf : ℕ → ℕ) (connected : List ℤ) (cells : List ℕ) : Prop :=
  cells.Pairwise (· < ·) ∧ ∀ c, c ∈ cells ↔ ∃ f : ℕ, (f : ℤ) ∈ connected ∧ cellOf f = c

/-- The linked points: positions of the non-negative entries, in increasing order. -/
def linkedPoints (connected : List ℤ) : List ℕ :=
  (List.range connected.length).filter (fun q => decide (0 ≤ connected.getD q 0))

/-- Row `i` of an array of rows of length `stride`, 0 past its end. -/
noncomputable def dataRow (data : ℕ → ℝ) (stride i : ℕ) (t : ℕ) : ℝ := if t < stride then data (i * stride + t) else 0

/-- Entry `d` of the global vector that holds the element vector `v` of `cell`: local dof `j`,
component `k` goes to `bs * dofs cell j + k`. -/
noncomputable def scatter (nd bs : ℕ) (dofs : ℕ → ℕ → ℕ) (cell : ℕ) (v : ℕ → ℝ) (d : ℕ) : ℝ :=
  ∑ j ∈ range nd, ∑ k ∈ range bs, if d = bs * dofs cell j + k then v (bs * j + k) else 0

/-- Entry `(r, c)` of the global matrix that holds the element matrix `v` (row-major) coupling two
cells. -/
noncomputable def scatter2 (nd bs : ℕ) (dofs : ℕ → ℕ → ℕ) (rowCell colCell : ℕ) (v : ℕ → ℝ) (r c : ℕ) : ℝ :=
  ∑ i ∈ range nd, ∑ k ∈ range bs, ∑ j ∈ range nd, ∑ l ∈ range bs,
    if r = bs * dofs rowCell i + k ∧ c = bs * dofs colCell j + l then
      v ((bs * i + k) * (bs * nd) + (bs * j + l)) else 0

/-- What a facet adds to the global vector: block 0 of its element vectors on its own cell, block
`l + 1` on the `l`-th linked cell. -/
noncomputable def facetVector (nd bs : ℕ) (dofs : ℕ → ℕ → ℕ) (cell : ℕ) (linked : List ℕ)
    (e : ℕ × ℕ → ℝ) (d : ℕ) : ℝ :=
  scatter nd bs dofs cell (fun p => e (0, p)) d +
    ∑ l ∈ range linked.length, scatter nd bs dofs (linked.getD l 0) (fun p => e (l + 1, p)) d

/-- What a facet adds to the global matrix: block 0 couples its cell with itself, blocks `3 j + 1`,
`3 j + 2`, `3 j + 3` are (cell, link), (link, cell) and (link, link) for the `j`-th linked cell. -/
noncomputable def facetMatrix (nd bs : ℕ) (dofs : ℕ → ℕ → ℕ) (cell : ℕ) (linked : List ℕ)
    (e : ℕ × ℕ → ℝ) (r c : ℕ) : ℝ :=
  scatter2 nd bs dofs cell cell (fun p => e (0, p)) r c +
    ∑ j ∈ range linked.length,
      (scatter2 nd bs dofs cell (linked.getD j 0) (fun p => e (3 * j + 1, p)) r c
        + scatter2 nd bs dofs (linked.getD j 0) cell (fun p => e (3 * j + 2, p)) r c
        + scatter2 nd bs dofs (linked.getD j 0) (linked.getD j 0) (fun p => e (3 * j + 3, p)) r c)

/-- A kernel only uses and fills the blocks it is given: inside them the result depends on nothing
outside them. -/
def StaysInBlocks (blocks size : ℕ) (k : (ℕ × ℕ → ℝ) → ℕ × ℕ → ℝ) : Prop :=
  ∀ a a', (∀ m, m.1 < blocks → m.2 < size → a m = a' m) →
    ∀ m, m.1 < blocks → m.2 < size → k a m = k a' m

end Verif.Spec
