import Verif.Model.Entities
import Verif.Model.Search
import Mathlib.Data.Real.Basic
import Mathlib.Data.List.Sort

/-!
# Contact pairs of the Christmas tree

`python/demos/new_demo_christmas_tree.py`: the contact surfaces of the tree and of the surrounding body are cut into `split` parts, and
each part is paired with the facets of the other body that are near it.
-/

namespace Verif.TreePairs

/-- The facet marker of the mesh (`find`) and the midpoints of facets. -/
structure Input where
  find : ℤ → List ℕ
  mid : ℕ → Fin 3 → ℝ

/-- `christmas_tree.py:96-101` (`base = 5`), `191-196` (`base = 4`): tags of the groups of the tree, parts first, then the bottom;
the groups themselves are `Verif.Tree.innerGroups`. -/
def innerTags (base split : ℕ) : List ℤ :=
  (List.range (split - 1)).map (fun i => ((base + i + 1 : ℕ) : ℤ)) ++ [((base + split : ℕ) : ℤ)] ++ [3]

/-- `christmas_tree.py:140-152` (`base = 5`), `221-232` (`base = 4`): tags of the groups of the surrounding body, the box first; the
groups themselves are `Verif.Tree.outerGroups2D` and `outerGroups3D`. -/
def outerTags (base split : ℕ) : List ℤ :=
  4 :: (List.range split).map (fun i => ((base + split + i + 1 : ℕ) : ℤ))

/-- `new_demo_christmas_tree.py:76`, `135`: `marker_offset`, 6 in space and 5 in the plane. -/
def markerOffset (threed : Bool) : ℕ := if threed then 6 else 5

/-- `christmas_tree.py`: the number in front of the tags, 5 in space and 4 in the plane. -/
def base (threed : Bool) : ℕ := if threed then 5 else 4

/-- `new_demo_christmas_tree.py:163`: `cand_facets_0`. -/
def cand0 (I : Input) (off split : ℕ) : List ℕ :=
  ((List.range split).flatMap (fun i => I.find ((off + i : ℕ) : ℤ))).insertionSort (· ≤ ·)

/-- `new_demo_christmas_tree.py:164-166`: `cand_facets_1`. -/
def cand1 (I : Input) (off split : ℕ) : List ℕ :=
  ((List.range split).flatMap (fun i => I.find ((off + split + i : ℕ) : ℤ))).insertionSort (· ≤ ·)

/-- `find_candidate_surface_segment(mesh, facets, candidates, 0.8)`. -/
noncomputable def segmentNear (I : Input) (facets cand : List ℕ) : List ℕ :=
  Search.findSurfaceSegment (facets.map I.mid) (cand.map (fun f => (f, I.mid f))) (8 / 10)

/-- `meshtags(mesh, tdim - 1, fcts, vls)` with one value. -/
def single (fcts : List ℕ) (v : ℤ) (t : ℤ) : List ℕ := if t = v then fcts else []

/-- `new_demo_christmas_tree.py:162-192`: `mts[1:]`. -/
noncomputable def markers (I : Input) (off split : ℕ) : List (ℤ → List ℕ) :=
  [I.find]
    ++ (List.range split).map (fun i => single (segmentNear I (I.find ((off + split + i : ℕ) : ℤ)) (cand0 I off split)) ((off + 2 * split + i : ℕ) : ℤ))
    ++ (List.range split).map (fun i => single (segmentNear I (I.find ((off + i : ℕ) : ℤ)) (cand1 I off split)) ((off + 3 * split + i : ℕ) : ℤ))

/-- `new_demo_christmas_tree.py:195`: `data`. -/
def data (off split : ℕ) : List ℤ := (List.range (4 * split)).map (fun i => ((off + i : ℕ) : ℤ))

/-- `new_demo_christmas_tree.py:196-201`: `offsets`. -/
def offsets (split : ℕ) : List ℕ := [0, 2 * split] ++ (List.range (2 * split)).map (fun i => 2 * split + 1 + i)

/-- `surfaces.links(s)`. -/
def links (off split s : ℕ) : List ℤ :=
  ((data off split).take ((offsets split).getD (s + 1) 0)).drop ((offsets split).getD s 0)

/-- `new_demo_christmas_tree.py:240-243`: `contact_pairs`. -/
def contactPairs (split : ℕ) : List (ℕ × ℕ) :=
  (List.range split).flatMap (fun i => [(i, 3 * split + i), (split + i, 2 * split + i)])

/-- `new_demo_christmas_tree.py:307-309`: the surfaces `ContactProblem` makes of `mts[1:]` and `surfaces`. -/
noncomputable def surfaces (cn : Entities.Conn) (I : Input) (off split : ℕ) : Except Entities.Err (List ℕ × List ℕ) :=
  Entities.contactFromMarkers cn (fun s t => ((markers I off split).getD s (fun _ => [])) t) (links off split)
    (markers I off split).length ((offsets split).length - 1)

end Verif.TreePairs
