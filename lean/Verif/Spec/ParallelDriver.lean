import Verif.Spec.Partition
import Verif.Model.ParallelDriver

/-!
Specification for C199: the processes hold the parts of a problem.
-/

namespace Verif.Spec

open Verif.ContactProblem

variable {G : Type}

/-- The processes of `D` hold the contact problem `Z`: every process holds a part of it (`facet p i e` is the
number which its facet `e` of pair `i` has in the whole problem), every facet is owned by exactly one process,
and a process has all dofs which its facets and the cells in contact with them use. -/
structure Distributes (D : Processes G) (Z : System G) (facet : ℕ → ℕ → ℕ → ℕ) : Prop where
  valid : ∀ p < D.num, System.Valid (D.part p)
  parts : ∀ p < D.num, PartOf (D.part p) Z (facet p) (D.node p)
  owned : OwnedOnce D.num D.part Z facet
  dofs : ∀ p < D.num, DofsBelow (D.part p) (D.numLocal p)

end Verif.Spec
