import Verif.Spec.SystemTangent

/-!
Specification for C159 and C160: the order in which contact pairs are listed, and the dofs a contact problem couples.
-/

namespace Verif.Spec

open Verif.ContactProblem Finset

variable {G : Type}

/-- `p` lists the numbers `0, ..., n - 1` in some order. -/
def Lists (n : ℕ) (p : ℕ → ℕ) : Prop := (∀ i < n, p i < n) ∧ ∀ i < n, ∀ j < n, p i = p j → i = j

/-- The contact problem whose contact pair `i` is pair `p i` of `Y`: another order of the argument `contact_pairs`. -/
def relisted (Y : System G) (p : ℕ → ℕ) : System G :=
  { Y with
    facets := fun i => Y.facets (p i)
    localFacets := fun i => Y.localFacets (p i)
    map := fun g i => Y.map g (p i)
    basis := fun g i => Y.basis g (p i)
    raytracing := fun i => Y.raytracing (p i)
    gap := fun g i => Y.gap g (p i)
    nx := fun g i => Y.nx g (p i)
    ny := fun g i => Y.ny g (p i) }

/-- A packed displacement increment for the pairs in the other order. -/
def relistedDu (p : ℕ → ℕ) (d : Du G) : Du G := ⟨fun i => d.val (p i), fun i => d.grad (p i), fun g i => d.opp g (p i)⟩

/-- The same call for the pairs in the other order. -/
def relistedCall (p : ℕ → ℕ) : Op G → Op G
  | .generate a => .generate { a with
      mu := a.mu.map (fun m i => m (p i))
      lam := a.lam.map (fun m i => m (p i))
      fric := a.fric.map (fun m i => m (p i))
      u := a.u.map (fun m i => m (p i))
      du := a.du.map (relistedDu p)
      h := fun i => a.h (p i) }
  | .updateData d => .updateData (relistedDu p d)
  | .updateDetection move m => .updateDetection move (fun i => m (p i))
  | .updateNitsche gamma theta => .updateNitsche gamma theta

/-- Dof `d` belongs to a cell. -/
def DofOf (Y : System G) (cell d : ℕ) : Prop := ∃ k < Y.nd, ∃ a < Y.gdim, d = Y.gdim * Y.space.parent cell k + a

/-- Dof `d` belongs to the cell of quadrature point `q` of facet `e` of pair `i`, or to the cell its contact point lies
in. -/
def DofAt (Y : System G) (g : G) (i e cell q d : ℕ) : Prop :=
  DofOf Y cell d ∨ DofOf Y (Y.space.parentCell (Y.subCell (Y.map g i (e * Y.nq + q)).toNat)) d

/-- `q` is a quadrature point, of owned facet `e` of pair `i`, which has a contact point; `cell` is its cell. -/
def PointInContact (Y : System G) (g : G) (i e cell q : ℕ) : Prop :=
  i < Y.numPairs ∧ e < Y.localFacets i ∧ (∃ f, (Y.facets i)[e]? = some (cell, f)) ∧ q < Y.nq
    ∧ 0 ≤ Y.map g i (e * Y.nq + q)

/-- Dof `d` is a dof of a cell at the contact zone, of either side. -/
def ContactDof (Y : System G) (g : G) (d : ℕ) : Prop := ∃ i e cell q, PointInContact Y g i e cell q ∧ DofAt Y g i e cell q d

/-- Some point in contact has both dofs. -/
def Coupled (Y : System G) (g : G) (d c : ℕ) : Prop :=
  ∃ i e cell q, PointInContact Y g i e cell q ∧ DofAt Y g i e cell q d ∧ DofAt Y g i e cell q c

end Verif.Spec
