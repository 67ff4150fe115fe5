import Verif.Spec.System

/-!
Specification for C130: a contact problem distributed over several processes.
-/

namespace Verif.Spec

open Verif.ContactProblem Finset

variable {G : Type}

/-- A packed array of one process holds the rows the array `m'` of the whole problem has for the same
facets. -/
def SameRows (numPairs : ℕ) (loc : ℕ → ℕ) (facet : ℕ → ℕ → ℕ) (m m' : ℕ → Mat) : Prop :=
  ∀ i < numPairs, ∀ e < loc i, ∀ c < (m i).cols, (m i).v e c = (m' i).v (facet i e) c

/-- The process with data `Y` holds a part of the problem `Z`: owned facet `e` of pair `i` is facet
`facet i e` of the whole problem, dof `d` of the process is dof `dof d`.  The elements are the same; at the
facet the process knows the same geometry, gaps and normals, the same contact points, and the cells in
contact are (possibly ghost) cells of the process. -/
structure PartOf (Y Z : System G) (facet : ℕ → ℕ → ℕ) (dof : ℕ → ℕ) : Prop where
  sizes : Y.numPairs = Z.numPairs ∧ Y.nq = Z.nq ∧ Y.nd = Z.nd ∧ Y.gdim = Z.gdim ∧ Y.tdim = Z.tdim
  element : Y.affine = Z.affine ∧ Y.off = Z.off ∧ Y.phi = Z.phi ∧ Y.dphi = Z.dphi ∧ Y.weights = Z.weights
    ∧ Y.nref = Z.nref ∧ Y.cphi = Z.cphi ∧ Y.inv = Z.inv ∧ Y.det = Z.det
  search : Y.raytracing = Z.raytracing
  own : ∀ i < Z.numPairs, ∀ e < Y.localFacets i, ∃ cell cell' f,
    (Y.facets i)[e]? = some (cell, f) ∧ (Z.facets i)[facet i e]? = some (cell', f)
    ∧ (∀ r, jacobianAt Y cell r = jacobianAt Z cell' r)
    ∧ ∀ a < Z.nd, dof (Y.space.parent cell a) = Z.space.parent cell' a
  data : ∀ g, SameRows Z.numPairs Y.localFacets facet (Y.gap g) (Z.gap g)
    ∧ SameRows Z.numPairs Y.localFacets facet (Y.nx g) (Z.nx g)
    ∧ SameRows Z.numPairs Y.localFacets facet (Y.ny g) (Z.ny g)
  linked : ∀ g, ∀ i < Z.numPairs, ∀ e < Y.localFacets i, ∀ q < Z.nq,
    (0 ≤ Y.map g i (e * Z.nq + q) ↔ 0 ≤ Z.map g i (facet i e * Z.nq + q))
    ∧ (0 ≤ Y.map g i (e * Z.nq + q) → ∀ a < Z.nd,
      dof (Y.space.parent (Y.space.parentCell (Y.subCell (Y.map g i (e * Z.nq + q)).toNat)) a)
        = Z.space.parent (Z.space.parentCell (Z.subCell (Z.map g i (facet i e * Z.nq + q)).toNat)) a
      ∧ Y.basis g i (e * Z.nq + q) a = Z.basis g i (facet i e * Z.nq + q) a)

/-- The same call, with the arguments packed by the process and for the whole problem. Earlier displacement
increments do not matter. -/
inductive SameCall (numPairs : ℕ) (loc : ℕ → ℕ) (facet : ℕ → ℕ → ℕ) : Op G → Op G → Prop
  | generate (a b : GenArgs G) (hlaw : a.law = b.law) (hgamma : a.gamma = b.gamma) (htheta : a.theta = b.theta)
      (hmu : Option.Rel (SameRows numPairs loc facet) a.mu b.mu)
      (hlam : Option.Rel (SameRows numPairs loc facet) a.lam b.lam)
      (hfric : Option.Rel (SameRows numPairs loc facet) a.fric b.fric)
      (hu : Option.Rel (SameRows numPairs loc facet) a.u b.u)
      (hh : SameRows numPairs loc facet a.h b.h) : SameCall numPairs loc facet (.generate a) (.generate b)
  | updateData (du du' : Du G) : SameCall numPairs loc facet (.updateData du) (.updateData du')
  | updateDetection (move : G → G) (m m' : ℕ → Mat) (h : SameRows numPairs loc facet m m') :
      SameCall numPairs loc facet (.updateDetection move m) (.updateDetection move m')
  | updateNitsche (gamma theta : ℝ) : SameCall numPairs loc facet (.updateNitsche gamma theta) (.updateNitsche gamma theta)

/-- Global number of a dof of a process, for `g` components. -/
def globalDof (g : ℕ) (dof : ℕ → ℕ) (d : ℕ) : ℕ := g * dof (d / g) + d % g

/-- Every facet of the whole problem is owned by exactly one process. -/
def OwnedOnce (P : ℕ) (Y : ℕ → System G) (Z : System G) (facet : ℕ → ℕ → ℕ → ℕ) : Prop :=
  ∀ i < Z.numPairs,
    (∀ p < P, ∀ e < (Y p).localFacets i, facet p i e < Z.localFacets i)
    ∧ ∀ E < Z.localFacets i, ∃ p < P, ∃ e < (Y p).localFacets i, facet p i e = E
      ∧ ∀ p' < P, ∀ e' < (Y p').localFacets i, facet p' i e' = E → p' = p ∧ e' = e

end Verif.Spec
