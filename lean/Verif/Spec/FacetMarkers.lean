import Verif.Model.FacetMarkers
import Mathlib.Analysis.Convex.Hull

/-!
# What a facet marker should be
-/

namespace Verif.Spec.FacetMarkers

open Verif.FacetMarkers

/-- Facet `f` of the mesh is on the boundary and all its vertices meet the condition. -/
def Marked (mesh : List Facet) (c : Pt → Prop) (i : ℕ) : Prop :=
  ∃ f ∈ mesh, f.id = i ∧ f.boundary = true ∧ ∀ v ∈ f.vertices, c v

/-- What `meshtags` asks of its arguments (checked only in debug builds of the library): same length, increasing facets, no
facet twice. -/
def Valid (t : Tags) : Prop := t.indices.length = t.values.length ∧ t.indices.Pairwise (· < ·)

/-- A mesh: facets have different indices, and a facet has a vertex. -/
structure Good (mesh : List Facet) : Prop where
  ids : (mesh.map (·.id)).Nodup
  vertex : ∀ f ∈ mesh, f.vertices ≠ []

/-- Facet `g` is part of facet `f`, as after refining the mesh. -/
def PartOf (g f : Facet) : Prop := ∀ v ∈ g.vertices, v ∈ convexHull ℝ {w | w ∈ f.vertices}

end Verif.Spec.FacetMarkers
