import Verif.Model.ContactMeshes

/-!
`python/dolfinx_contact/meshing/contact_meshes.py`: the physical groups of the plane meshes with two bodies, and the
values by which the demos refer to them. `addPhysicalGroup` and `getBoundary` are functions of Gmsh, modelled by what
they do: a group without a given tag gets one more than the largest tag in use, and the boundary of surfaces consists of
the curves that belong to one of them only, in the order of their creation.
-/

namespace Verif.Tags

open Verif.ContactMeshes

noncomputable section

/-- Physical groups in order of creation: dimension, tag and curves; the curves of a surface stand for the surface. -/
abbrev Groups := List (ℕ × ℕ × List Curve)

/-- `addPhysicalGroup(dim, tags, tag=tag)` (Gmsh), e.g. `contact_meshes.py:75`. -/
def addTagged (g : Groups) (dim tag : ℕ) (cs : List Curve) : Groups := g ++ [(dim, tag, cs)]

/-- `addPhysicalGroup(dim, tags)` without a tag (Gmsh), e.g. `contact_meshes.py:80`. -/
def addGroup (g : Groups) (dim : ℕ) (cs : List Curve) : Groups :=
  g ++ [(dim, (g.map (fun x => x.2.1)).foldr max 0 + 1, cs)]

/-- `[model.addPhysicalGroup(b[0], [b[1]]) for b in bndry]`, e.g. `contact_meshes.py:79`. -/
def addEach (g : Groups) (bndry : List Curve) : Groups := bndry.foldl (fun g b => addGroup g 1 [b]) g

/-- `create_circle_plane_mesh`, `contact_meshes.py:74-80`. -/
def circlePlaneGroups (r height length gap : ℝ) : Groups :=
  let b := circlePlane r height length gap
  let g := addTagged [] 2 1 b.1
  let g := addTagged g 2 2 b.2
  let g := addEach g b.2
  b.1.foldl (fun g arc => addGroup g 1 [arc]) g

/-- `create_halfdisk_plane_mesh`, `contact_meshes.py:141-148`. -/
def halfdiskGroups (r height length gap : ℝ) : Groups :=
  let b := halfdiskPlane r height length gap
  let g := addTagged [] 2 1 b.1
  let g := addTagged g 2 2 b.2
  let g := addEach g b.2
  let g := addGroup g 1 (b.1.take 1)
  addGroup g 1 (b.1.drop 1)

/-- `create_gmsh_box_mesh_2D`, `contact_meshes.py:476-483`. -/
def boxes2DGroups : Groups :=
  let b := boxes2D
  let g := addTagged [] 2 1 b.1
  let g := addEach g b.1
  let g := addTagged g 2 2 b.2
  addEach g b.2

/-- `sliding_wedges`, `contact_meshes.py:302-311`. -/
def wedgeGroups (t res : ℝ) : Groups :=
  let lower := (slidingWedges t res).1
  let upper := (slidingWedges t res).2
  let g := addTagged [] 2 1 upper
  let g := addTagged g 2 2 lower
  let g := addGroup g 1 (lower.take 1)
  let g := addGroup g 1 ((lower.drop 1).take 1)
  let g := addGroup g 1 ((lower.drop 2).take 3)
  let g := addGroup g 1 ((lower.drop 5).take 1)
  addEach g upper

/-- The curves of `create_quarter_disks_mesh` in order of creation, `contact_meshes.py:191-198`, `212-219`: the arcs and
lines of the two bodies. Curve `k` has tag `k + 1`. -/
def quarterCurves (r gap : ℝ) : List Curve :=
  let q := quarterDisks r gap
  let pick (l : List Curve) (i : ℕ) : Curve := l.getD i (.line (0, 0) (0, 0))
  [pick q.1.2 2, pick q.1.2 3, pick q.1.1 0, pick q.1.1 1, pick q.1.1 2, pick q.1.1 3, (pick q.1.2 1).back,
    pick q.2.2 0, pick q.2.2 1, pick q.2.1 0, pick q.2.1 1, pick q.2.2 2, (pick q.2.1 2).back, (pick q.2.2 3).back]

/-- Tags in the curve loops of the two surfaces of the upper and of the lower body, `contact_meshes.py:199-200`, `220-221`. -/
def quarterLoops : List (List ℤ) × List (List ℤ) :=
  ([[3, 4, 5, 6], [-6, -7, 1, 2]], [[10, 11, -13, -12], [8, 9, 12, -14]])

/-- `getBoundary` of surfaces (Gmsh): tags of the curves that occur once, in increasing order. -/
def getBoundary (n : ℕ) (loops : List (List ℤ)) : List ℕ :=
  (List.range' 1 n).filter (fun k => (loops.flatten.map Int.natAbs).count k == 1)

/-- `create_quarter_disks_mesh`, `contact_meshes.py:226-234`. -/
def quarterGroups (r gap : ℝ) : Groups :=
  let q := quarterDisks r gap
  let curve (k : ℕ) : Curve := (quarterCurves r gap).getD (k - 1) (.line (0, 0) (0, 0))
  let g := addTagged [] 2 1 (q.1.1 ++ q.1.2)
  let g := addTagged g 2 2 (q.2.1 ++ q.2.2)
  let g := addEach g ((getBoundary 14 quarterLoops.1).map curve)
  addEach g ((getBoundary 14 quarterLoops.2).map curve)

/-- The facet marker read from the mesh: value and curves of the groups of facets. -/
abbrev Marker := List (ℕ × List Curve)

/-- `model_to_mesh`, `read_meshtags` (library): facets carry the tags of the one-dimensional groups. -/
def marker (g : Groups) : Marker := (g.filter (fun x => x.1 == 1)).map (fun x => x.2)

/-- `facet_marker.values[vals == a] = b` (`demo_friction_cylinders.py:111-115`, `demo_friction_cylinders_force_driven.py:108-112`). -/
def relabel (a b : ℕ) (m : Marker) : Marker := m.map (fun x => (if x.1 = a then b else x.1, x.2))

/-- The four relabellings of the friction demos (`demo_friction_cylinders.py:111-115`). -/
def relabelled (m : Marker) : Marker := relabel 14 13 (relabel 11 10 (relabel 8 7 (relabel 5 4 m)))

/-- `facet_marker.find(value)`: the curves marked with a value. -/
def find (m : Marker) (v : ℕ) : List Curve := ((m.filter (fun x => x.1 == v)).map (fun x => x.2)).flatten

/-- The four values a demo gives to a solver: where the upper body is driven or loaded, its contact surface, the contact
surface of the lower body, and where the lower body is held. -/
structure Values where
  driven : ℕ
  contact1 : ℕ
  contact2 : ℕ
  held : ℕ

/-- `demo_nitsche_unbiased.py:219-222` (two boxes). -/
def boxValues : Values := ⟨5, 3, 9, 7⟩

/-- `demo_nitsche_unbiased.py:243-246`, `demo_hertzian_contact.py:245-248` (disc above a box). -/
def discValues : Values := ⟨8, 10, 6, 4⟩

/-- `demo_hertzian_contact.py:264-267` (half disc above a box). -/
def halfdiscValues : Values := ⟨8, 7, 6, 4⟩

/-- `demo_friction_cylinders.py:117-120`, `demo_friction_cylinders_force_driven.py:114-117` (halves of two discs). -/
def cylinderValues : Values := ⟨7, 4, 10, 13⟩

/-- `demo_sliding_wedges.py:103-107`. -/
def wedgeValues : Values := ⟨9, 7, 5, 3⟩

/-- `new_demo_nitsche_rigid_surface_ufl.py:65-68` (disc above a box): `top_value`, `bottom_value`, `surface_value`, `surface_bottom`. -/
def rigidValues : Values := ⟨2, 4, 9, 7⟩

end

end Verif.Tags
