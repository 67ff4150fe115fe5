import Verif.Model.Distributed

namespace Verif.Distributed

open Finset

noncomputable section

/-- The residual of the discrete problem at the global vector `X`: all cells and facets of all
processes. -/
def Problem.formResidual (S : Problem) (X : ℕ → ℝ) (g : ℕ) : ℝ :=
  ∑ p ∈ range S.procs, ((S.cells p).map (fun c => S.cellVec c X g)).sum

def Problem.contactResidual (S : Problem) (X : ℕ → ℝ) (g : ℕ) : ℝ :=
  ∑ p ∈ range S.procs, ((S.facets p).map (fun f => S.facetVec f X g)).sum

/-- The derivative matrix of the form, without boundary conditions. -/
def Problem.formMatrix (S : Problem) (X : ℕ → ℝ) (g j : ℕ) : ℝ :=
  ∑ p ∈ range S.procs, ((S.cells p).map (fun c => S.cellMat c X g j)).sum

/-- What a solver reads of a vector: the owned entries. -/
def Problem.owned (S : Problem) (v : DVec) (g : ℕ) : ℝ := v (S.owner g) g

end

end Verif.Distributed
