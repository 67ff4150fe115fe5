import Mathlib.Data.Real.Basic
import Mathlib.Data.List.Sort

/-!
# Facet markers built from coordinates

Several demos mark facets by conditions on coordinates: `locate_entities_boundary` for each condition, the lists put one after
the other, `np.argsort`, `meshtags`.
-/

namespace Verif.FacetMarkers

/-- Rows of the coordinate array passed to a marker function; always three. -/
abbrev Pt := ℝ × ℝ × ℝ

/-- A facet: its index, whether it is on the boundary, the coordinates of its vertices. -/
structure Facet where
  id : ℕ
  boundary : Bool
  vertices : List Pt

open Classical in
/-- `locate_entities_boundary(mesh, tdim - 1, marker)` (library): facets on the boundary all of whose vertices are marked. -/
noncomputable def locate (mesh : List Facet) (marker : Pt → Prop) : List ℕ :=
  (mesh.filter (fun f => f.boundary && decide (∀ v ∈ f.vertices, marker v))).map (·.id)

/-- The conditions of a demo with the value each of them is given. -/
abbrev Family := List ((Pt → Prop) × ℕ)

/-- `new_demo_custom_snes_one_sided.py:125-129`, `demo_nitsche_unbiased.py:118-130`: `np.concatenate` of the located facets. -/
noncomputable def indices (mesh : List Facet) (fam : Family) : List ℕ := fam.flatMap (fun c => locate mesh c.1)

/-- `new_demo_custom_snes_one_sided.py:127-130`, `demo_nitsche_unbiased.py:125-131`: `np.hstack` of the `np.full(len(...), value)`. -/
noncomputable def values (mesh : List Facet) (fam : Family) : List ℕ :=
  fam.flatMap (fun c => List.replicate (locate mesh c.1).length c.2)

/-- `np.argsort(a)` (library). The default algorithm is not stable: any permutation that sorts is allowed. -/
def IsArgsort (a σ : List ℕ) : Prop :=
  σ.Perm (List.range a.length) ∧ (σ.map (fun i => a.getD i 0)).Pairwise (· ≤ ·)

/-- `a[σ]` for arrays. -/
def take (a σ : List ℕ) : List ℕ := σ.map (fun i => a.getD i 0)

/-- The arrays in `meshtags(mesh, tdim - 1, indices[sorted_facets], values[sorted_facets])`, `demo_nitsche_unbiased.py:134` etc. -/
structure Tags where
  indices : List ℕ
  values : List ℕ

/-- `new_demo_custom_snes_one_sided.py:131-132`, `demo_nitsche_unbiased.py:133-134`, `203-204`, `288-290`,
`new_demo_nitsche_rigid_surface_custom.py:145-146`, `new_demo_nitsche_euler_bernoulli.py:70-71`. -/
def tags (i v σ : List ℕ) : Tags := ⟨take i σ, take v σ⟩

/-- `MeshTags::find` (library). -/
def Tags.find (t : Tags) (v : ℕ) : List ℕ := ((t.indices.zip t.values).filter (fun p => p.2 == v)).map (·.1)

/-- `demo_christmas_tree_3D.py:128-136`, `new_demo_christmas_tree.py:99-108`: facets for the third component are added to an
existing marker. -/
noncomputable def extended (t : Tags) (mesh : List Facet) (c1 c2 : Pt → Prop) (z : ℕ) : List ℕ × List ℕ :=
  (t.indices ++ locate mesh c1 ++ locate mesh c2,
    t.values ++ List.replicate ((locate mesh c1).length + (locate mesh c2).length) z)

/-! ### the conditions -/

/-- `np.isclose(x, a)` with the default tolerances. -/
def isclose (x a : ℝ) : Prop := |x - a| ≤ 1 / 10 ^ 8 + 1 / 10 ^ 5 * |a|

/-- `demo_nitsche_unbiased.py:118-124`: boxes in space. -/
def boxes : Family :=
  [(fun x => isclose x.2.2 (1 / 2), 1), (fun x => isclose x.2.2 0, 2), (fun x => isclose x.2.2 (-1 / 10), 3),
    (fun x => isclose x.2.2 (-6 / 10), 4)]

/-- `demo_nitsche_unbiased.py:168-187`: cylinders in space. -/
def cylinders : Family :=
  [(fun x => 22 / 10 < x.1, 1), (fun x => x.1 < 2 ∧ 145 / 100 < x.1, 2), (fun x => 1 / 4 < x.1 ∧ x.1 < 11 / 10, 3),
    (fun x => x.1 < -1 / 2, 4)]

/-- `demo_nitsche_unbiased.py:262-282`: two discs. -/
def circles : Family :=
  [(fun x => 1 / 2 < x.2.1, 1), (fun x => x.2.1 < 49 / 100 ∧ 11 / 100 < x.2.1, 2), (fun x => -45 / 100 < x.2.1 ∧ x.2.1 < 1 / 10, 3),
    (fun x => x.2.1 < -55 / 100, 4)]

/-- `new_demo_custom_snes_one_sided.py:106-110`, `new_demo_compare_nitsche_snes.py`: one body in the plane. -/
def oneSided2D : Family := [(fun x => 1 / 2 < x.2.1, 1), (fun x => x.2.1 < 2 / 10, 2)]

/-- `new_demo_custom_snes_one_sided.py:90-94`, `new_demo_compare_nitsche_snes.py`: one body in space. -/
def oneSided3D : Family := [(fun x => 9 / 10 < x.2.2, 1), (fun x => x.2.2 < 15 / 100, 2)]

/-- `new_demo_nitsche_rigid_surface_custom.py:119-138`: disc above a rigid box. -/
def rigid : Family :=
  [(fun x => 0 < x.2.1, 1), (fun x => x.2.1 < -5 / 100 ∧ -35 / 100 < x.2.1, 2), (fun x => isclose x.2.1 (-4 / 10), 3),
    (fun x => isclose x.2.1 (-5 / 10), 4)]

/-- `new_demo_nitsche_euler_bernoulli.py:52-66`: the clamped and the loaded side of a beam of height `H`. -/
def beam (H : ℝ) : Family := [(fun x => isclose x.1 0, 1), (fun x => isclose x.2.1 H, 2)]

/-- `demo_christmas_tree_3D.py:119-122`, `new_demo_christmas_tree.py:87-91`: `identifier`. -/
def identifier (z : ℝ) (x : Pt) : Prop := (isclose x.2.2 z ∧ |x.2.1| < 1 / 10) ∧ |x.1 - 2| < 1 / 10

end Verif.FacetMarkers
