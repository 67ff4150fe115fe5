import Verif.Model.TreePairs

/-!
# What the pairs of contact surfaces of the Christmas tree should be
-/

namespace Verif.Spec.TreePairs

open Verif.TreePairs

/-- Surface `k` of an adjacency list. -/
def surface (s : List ℕ × List ℕ) (k : ℕ) : List ℕ := (s.1.take (s.2.getD (k + 1) 0)).drop (s.2.getD k 0)

/-- The facets with one of `split` tags from `first` on: the contact surface of one body. -/
def whole (I : Input) (first split : ℕ) : Set ℕ := {g | ∃ i < split, g ∈ I.find ((first + i : ℕ) : ℤ)}

/-- Facets `f` and `g` are nearer than 0.8, measured between midpoints. -/
def Near (I : Input) (f g : ℕ) : Prop :=
  (I.mid f 0 - I.mid g 0) ^ 2 + (I.mid f 1 - I.mid g 1) ^ 2 + (I.mid f 2 - I.mid g 2) ^ 2 < (8 / 10) ^ 2

/-- `near` are the facets of the contact surface `other` near one of the facets of `mine`. -/
def IsNear (I : Input) (mine : List ℕ) (other : Set ℕ) (near : List ℕ) : Prop :=
  ∀ g, g ∈ near ↔ g ∈ other ∧ ∃ f ∈ mine, Near I f g

end Verif.Spec.TreePairs
