import Mathlib.Analysis.SpecialFunctions.Trigonometric.Basic

/-!
`python/dolfinx_contact/meshing/contact_meshes.py`: the bodies that the mesh generators pass to Gmsh.  Doubles are reals.
Modelled are the points, the curve loops of the surfaces and the boxes and spheres, in the order of the program; the
calls for mesh sizes, physical groups and the mesh itself are left out.  The third coordinate of points of plane bodies,
always zero, is left out.
-/

namespace Verif.ContactMeshes

noncomputable section

/-- `occ.addLine(a, b)` and `occ.addCircleArc(a, centre, b)`. -/
inductive Curve
  | line (a b : ℝ × ℝ)
  | arc (a c b : ℝ × ℝ)

/-- A curve with a negative tag in `addCurveLoop`: the curve backwards. -/
def Curve.back : Curve → Curve
  | .line a b => .line b a
  | .arc a c b => .arc b c a

/-- `[addLine(ps[i - 1], ps[i]) for i in range(len(ps))]`, e.g. `contact_meshes.py:68-69`; `ps[-1]` is the last one. -/
def polygon (ps : List (ℝ × ℝ)) : List Curve :=
  (List.range ps.length).map (fun i => .line (ps.getD (if i = 0 then ps.length - 1 else i - 1) 0) (ps.getD i 0))

/-- The corners `p0, p1, p2, p3` of the box below a disc: `contact_meshes.py:64-71`, `131-138`. -/
def lowerBox (r height length gap : ℝ) : List Curve :=
  polygon [(-length / 2, -height - r - gap), (length / 2, -height - r - gap), (length / 2, -r - gap), (-length / 2, -r - gap)]

/-- `contact_meshes.py:42-71` `create_circle_plane_mesh`: loops of the two surfaces. -/
def circlePlane (r height length gap : ℝ) : List Curve × List Curve :=
  let c := ((0 : ℝ), (0 : ℝ))
  let left := (-r, (0 : ℝ))
  let right := (r, (0 : ℝ))
  let angle := Real.pi / 3
  let topLeft := (-r * Real.cos angle, r * Real.sin angle)
  let topRight := (r * Real.cos angle, r * Real.sin angle)
  ([.arc left c topLeft, .arc topLeft c topRight, .arc topRight c right, .arc right c left], lowerBox r height length gap)

/-- `contact_meshes.py:116-138` `create_halfdisk_plane_mesh`. -/
def halfdiskPlane (r height length gap : ℝ) : List Curve × List Curve :=
  let c := ((0 : ℝ), (0 : ℝ))
  let left := (-r, (0 : ℝ))
  let right := (r, (0 : ℝ))
  ([.arc right c left, .line left right], lowerBox r height length gap)

/-- `contact_meshes.py:180-223` `create_quarter_disks_mesh`: loops of the two surfaces of each body. -/
def quarterDisks (r gap : ℝ) : (List Curve × List Curve) × (List Curve × List Curve) :=
  let c := ((0 : ℝ), (0 : ℝ))
  let bottom1 := ((0 : ℝ), -r)
  let topRight := (r, (0 : ℝ))
  let topLeft := (-r, (0 : ℝ))
  let angle := Real.pi / 6
  let right1 := (r * Real.sin angle, -r * Real.cos angle)
  let left1 := (-r * Real.sin angle, -r * Real.cos angle)
  let a0 := Curve.arc topLeft c left1
  let a1 := Curve.arc left1 c bottom1
  let a2 := Curve.arc bottom1 c right1
  let a3 := Curve.arc right1 c topRight
  let line1 := Curve.line topRight c
  let line2 := Curve.line c bottom1
  let line3 := Curve.line topLeft c
  let c2 := ((0 : ℝ), 0 - 2 * r - gap)
  let bottomRight := (r, -2 * r - gap)
  let bottomLeft := (-r, -2 * r - gap)
  let top2 := ((0 : ℝ), -r - gap)
  let right2 := (r * Real.sin angle, r * Real.cos angle - 2 * r - gap)
  let left2 := (-r * Real.sin angle, r * Real.cos angle - 2 * r - gap)
  let b0 := Curve.arc bottomLeft c2 left2
  let b1 := Curve.arc left2 c2 top2
  let b2 := Curve.arc top2 c2 right2
  let b3 := Curve.arc right2 c2 bottomRight
  let line3' := Curve.line top2 c2
  let line4 := Curve.line c2 bottomRight
  let line5 := Curve.line bottomLeft c2
  (([a2, a3, line1, line2], [line2.back, line3.back, a0, a1]), ([b2, b3, line4.back, line3'.back], [b0, b1, line3', line5.back]))

/-- `contact_meshes.py:269-298` `sliding_wedges`: loops of the lower and the upper wedge (`curve1`, `curve2`); `t` is `tan(angle)`. -/
def slidingWedges (t res : ℝ) : List Curve × List Curve :=
  let bl := ((0 : ℝ), (0 : ℝ))
  let br := ((9 : ℝ), (0 : ℝ))
  let tl := ((3 : ℝ), 3 + 9 * t)
  let tr := ((6 : ℝ), 3 + 9 * t)
  let cl := ((0 : ℝ), (2 : ℝ))
  let cr := ((9 : ℝ), 2 + 9 * t)
  let ctl := ((3 : ℝ), 2 + 3 * t)
  let ctr := ((6 : ℝ), 2 + 6 * t)
  let cbl := (3 + 1 * res, 2 + (3 + 1 * res) * t)
  let cbr := (6 + 1 / 2 * res, 2 + (6 + 1 / 2 * res) * t)
  ([.line bl br, .line br cr, .line cr cbr, .line cbr cbl, .line cbl cl, .line cl bl],
    [.line ctl ctr, .line ctr tr, .line tr tl, .line tl ctl])

/-- `contact_meshes.py:355-361`, `372-377`: four points on the circle, and `362-364`, `378-381` the arcs between them. -/
def fourArcs (c : ℝ × ℝ) (r : ℝ) : List Curve :=
  let angle := Real.pi / 4
  let angles := [angle, -angle, Real.pi + angle, Real.pi - angle]
  let ps := angles.map (fun a => (c.1 + r * Real.cos a, c.2 + r * Real.sin a))
  (List.range ps.length).map (fun i => .arc (ps.getD (if i = 0 then ps.length - 1 else i - 1) 0) c (ps.getD i 0))

/-- `contact_meshes.py:347-384` `create_circle_circle_mesh`. -/
def circleCircle : List Curve × List Curve :=
  (fourArcs (1 / 2, 1 / 2) (3 / 10), fourArcs (1 / 2, -1 / 2) (2 * (3 / 10)))

/-- `contact_meshes.py:439-465` `create_gmsh_box_mesh_2D`. -/
def boxes2D : List Curve × List Curve :=
  let length : ℝ := 1 / 2
  let height : ℝ := 1 / 2
  let disp : ℝ := -6 / 10
  let delta : ℝ := 1 / 10
  (polygon [(-delta, 0), (length - delta, delta), (length - delta, height + delta), (-delta, height)],
    polygon [(0, 0 + disp), (length, 0 + disp), (length, height + disp), (0, height + disp)])

/-- `contact_meshes.py:752-777` `create_2d_rectangle_split`. -/
def rectangleSplit (gap : ℝ) : List Curve × List Curve :=
  let length : ℝ := 1 / 2
  let height : ℝ := 1 / 2
  (polygon [(0, 0), (length, 0), (length, height), (0, height)],
    polygon [(length + gap, 0), (2 * length + gap, 0), (2 * length + gap, height), (length + gap, height)])

/-! ### three dimensions -/

/-- `occ.add_box(x, y, z, dx, dy, dz)`, `occ.addSphere(x, y, z, r, angle1, angle2)` with latitudes from `angle1` to `angle2`; a
rectangle extruded in the third direction is a box. -/
inductive Solid
  | box (x y z dx dy dz : ℝ)
  | sphere (x y z r angle1 angle2 : ℝ)

/-- `contact_meshes.py:508-523` `create_box_mesh_3D`: the box on top and the one below, for tetrahedra (`add_box`, lines 515-516)
and for hexahedra (rectangles in the planes `0` and `disp`, extruded by `width`, lines 519-522). -/
def boxes3D (gap width offset : ℝ) : Solid × Solid :=
  let length : ℝ := 1 / 2
  let height : ℝ := 1 / 2
  let disp := -width - gap
  (.box 0 (0 + offset) 0 length height width, .box 0 0 disp length height width)

/-- `contact_meshes.py:575-591` `create_sphere_plane_mesh`: the two parts of the sphere and the box. -/
def spherePlane (r height length width gap : ℝ) : (Solid × Solid) × Solid :=
  let angle : ℝ := 0
  ((.sphere 0 0 0 r (-Real.pi / 2) (-angle), .sphere 0 0 0 r (-angle) (Real.pi / 2)),
    .box (-length / 2) (-width / 2) (-height - r - gap) length width height)

/-- `contact_meshes.py:631-656` `create_sphere_sphere_mesh`. -/
def sphereSphere : (Solid × Solid) × (Solid × Solid) :=
  let angle := Real.pi / 8
  let r : ℝ := 3 / 10
  ((.sphere (1 / 2) (1 / 2) (1 / 2) r (-Real.pi / 2) (-angle), .sphere (1 / 2) (1 / 2) (1 / 2) r (-angle) (Real.pi / 2)),
    (.sphere (1 / 2) (1 / 2) (-(1 / 2)) (2 * r) (-Real.pi / 2) (-angle),
      .sphere (1 / 2) (1 / 2) (-(1 / 2)) (2 * r) (-angle) (Real.pi / 2)))

/-- `contact_meshes.py:825-840` `create_halfsphere_box_mesh`. -/
def halfsphereBox (r height length width gap : ℝ) : Solid × Solid :=
  let angle : ℝ := 0
  (.sphere 0 0 0 r (-Real.pi / 2) (-angle), .box (-length / 2) (-width / 2) (-height - r - gap) length width height)

/-! ### the process that creates the model -/

/-- Generators with arguments `comm` and `rank`. -/
inductive Generator
  | circlePlane | circleCircle | box2D | box3D | spherePlane | cylinderCylinder | tree | tree3D
  deriving DecidableEq

/-- Whether the process `me` of the communicator gets the model (and not `None`): `contact_meshes.py:43, 99` (circle and plane), `351`
(two circles: compares with zero), `444` (boxes), `512` (boxes in three dimensions), `579` (sphere and plane), `703` (cylinders),
`christmas_tree.py:60`, `169`. -/
def creates (g : Generator) (rank me : ℕ) : Bool :=
  match g with
  | .circleCircle => me == 0
  | _ => me == rank

end

end Verif.ContactMeshes
