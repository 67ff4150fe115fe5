import Verif.Model.Meshing
import Verif.Model.Tree
import Mathlib.Analysis.SpecialFunctions.Trigonometric.Basic

/-!
`python/dolfinx_contact/meshing/split_box.py`: the interface curves, the bodies of `create_split_box_2D`, `create_split_box_3D`,
`create_unsplit_box_2d` and `create_unsplit_box_3d`, and the lines, surfaces and volumes passed to Gmsh.  Doubles are reals.
Gmsh itself, the extrusion of `create_hex_mesh` and of the hexahedral unsplit box, and mesh sizes are left out.
-/

namespace Verif.SplitBox

open Verif.Meshing

noncomputable section

/-- `split_box.py:25-31` `vertical_line`. -/
def verticalLine (t : List ℝ) (x0 x1 : ℝ × ℝ) : List (ℝ × ℝ) :=
  t.foldl (fun points tt => points ++ [(x0.1, x0.2 + tt * (x1.2 - x0.2))]) []

/-- `split_box.py:34-40` `horizontal_line`. -/
def horizontalLine (t : List ℝ) (x0 x1 : ℝ × ℝ) : List (ℝ × ℝ) :=
  t.foldl (fun points tt => points ++ [(x0.1 + tt * (x1.1 - x0.1), x0.2 + tt * (x1.2 - x0.2))]) []

/-- `split_box.py:43-54` `horizontal_sine`. -/
def horizontalSine (t : List ℝ) (x0 x1 : ℝ × ℝ) : List (ℝ × ℝ) :=
  t.foldl (fun points tt => points ++ [(x0.1 + tt * (x1.1 - x0.1),
    x0.2 + tt * (x1.2 - x0.2) + 0.1 * Real.sin (8 * Real.pi * tt))]) []

/-- `split_box.py:527`, `602` (and `239-241`, `313-315`): the list `points`; other indices raise an `IndexError` and are not modelled. -/
def corners (L H : ℝ) (x0 x1 : ℝ × ℝ) (i : ℕ) : ℝ × ℝ :=
  [((0 : ℝ), (0 : ℝ)), (L, 0), (L, H), (0, H), x0, x1].getD i (0, 0)

/-- `split_box.py:541-544`, `553-556`, `612-618`, `626-633` with `194`, `421` and `474`: the polygon of a body, from `n` segments. -/
def body (curve : List ℝ → ℝ × ℝ → ℝ × ℝ → List (ℝ × ℝ)) (n : ℕ) (domain : List ℕ) (L H : ℝ) (x0 x1 : ℝ × ℝ) :
    Except Err (List (ℝ × ℝ)) :=
  getSurfacePoints domain (corners L H x0 x1) (curve (Tree.linspace 0 1 (n + 1)) x0 x1)

/-- `split_box.py:237-254`, `311-335`: the polygons of the two loops `curve1` and `curve2` of the unsplit box, each as the end
points of its lines.  `ps1[-3]` is entry `len(ps1) - 3`; `lines1[1:-2]` are the lines from `ps1[0]` to `ps1[-3]`. -/
def unsplit (curve : List ℝ → ℝ × ℝ → ℝ × ℝ → List (ℝ × ℝ)) (n : ℕ) (L H : ℝ) (x0 x1 : ℝ × ℝ) :
    Except Err (List (ℝ × ℝ) × List (ℝ × ℝ)) := do
  let ps1 ← body curve n [2, 3, 4, 5] L H x0 x1
  let ps2 := [ps1.getD (ps1.length - 3) 0, (L, 0), (0, 0), ps1.getD 0 0]
  return (ps1, (slice 1 (ps1.length - 2) ps1.length).map (fun i => ps1.getD i 0)
    ++ (pyRange 1 ps2.length).map (fun i => ps2.getD i 0))

end

/-! ### lines, loops and surface loops -/

/-- Python `xs[i - 1]` of a list of length `N`. -/
def prev (N i : ℕ) : ℕ := if i = 0 then N - 1 else i - 1

/-- The lines of `create_tet_mesh`: `lines1[i]`, `lines2[i]`, `lines_z[i]`. -/
inductive TetLine
  | one (i : ℕ)
  | two (i : ℕ)
  | z (i : ℕ)
  deriving DecidableEq

/-- `split_box.py:428`, `432`, `436`: end points of the lines; `(i, false)` is `ps1[i]` and `(i, true)` is `ps2[i]`, for `N`
points. -/
def tetEnds (N : ℕ) : TetLine → (ℕ × Bool) × (ℕ × Bool)
  | .one i => ((prev N i, false), (i, false))
  | .two i => ((prev N i, true), (i, true))
  | .z i => ((i, false), (i, true))

/-- `split_box.py:429`, `433`, `438-441`: the curve loops of the surfaces in the order of `addSurfaceLoop` in line 443.  The
second entry says if the tag of the line is negative. -/
def tetLoops (N : ℕ) : List (List (TetLine × Bool)) :=
  [(List.range N).map (fun i => (.one i, false))]
    ++ (List.range N).map (fun i => [(.one i, false), (.z i, false), (.two i, true), (.z (prev N i), true)])
    ++ [(List.range N).map (fun i => (.two i, false))]

/-- The lines of `create_unsplit_box_3d`: `lines1[i]` to `lines5[i]`, and the two new entries `lines6[1]`, `lines6[2]`. -/
inductive BoxLine
  | one (i : ℕ)
  | two (i : ℕ)
  | three (i : ℕ)
  | four (i : ℕ)
  | five (i : ℕ)
  | six (i : ℕ)
  deriving DecidableEq

/-- `split_box.py:321-330`: `ps2` and `ps4` as positions: `i < N` is `ps1[i]` (`ps3[i]`), `N` is `p2` and `N + 1` is `p1`. -/
def cornerPts (N : ℕ) : List ℕ := [N - 3, N, N + 1, 0]

/-- `split_box.py:332-333`, `339-340`, `345`, `354-355`: end points of the lines. -/
def boxEnds (N : ℕ) : BoxLine → (ℕ × Bool) × (ℕ × Bool)
  | .one i => ((prev N i, false), (i, false))
  | .two i => (((cornerPts N).getD i 0, false), ((cornerPts N).getD (i + 1) 0, false))
  | .three i => ((prev N i, true), (i, true))
  | .four i => (((cornerPts N).getD i 0, true), ((cornerPts N).getD (i + 1) 0, true))
  | .five i => ((i, false), (i, true))
  | .six i => (((cornerPts N).getD i 0, false), ((cornerPts N).getD i 0, true))

/-- `split_box.py:353-356`: `lines6`. -/
def lines6 (N : ℕ) : List BoxLine := [.five (N - 3), .six 1, .six 2, .five 0]

/-- `split_box.py:334-335`, `341-342`: `curve1`, `curve2`, `curve3`, `curve4`. -/
def boxPlanar (N : ℕ) : List (List (BoxLine × Bool)) :=
  [(List.range N).map (fun i => (.one i, false)),
   (slice 1 (N - 2) N).map (fun i => (.one i, false)) ++ (List.range 3).map (fun i => (.two i, false)),
   (List.range N).map (fun i => (.three i, false)),
   (slice 1 (N - 2) N).map (fun i => (.three i, false)) ++ (List.range 3).map (fun i => (.four i, false))]

/-- `split_box.py:346-350`: `curves1`. -/
def boxLateral (N i : ℕ) : List (BoxLine × Bool) :=
  [(.one i, false), (.five i, false), (.three i, true), (.five (prev N i), true)]

/-- `split_box.py:357-360`: `curves2`. -/
def boxOuter (N i : ℕ) : List (BoxLine × Bool) :=
  [(.two i, false), ((lines6 N).getD (i + 1) (.six 0), false), (.four i, true), ((lines6 N).getD i (.six 0), true)]

/-- `split_box.py:363`: the surfaces of the first volume. -/
def boxVolume1 (N : ℕ) : List (List (BoxLine × Bool)) :=
  [(boxPlanar N).getD 0 []] ++ (List.range N).map (boxLateral N) ++ [(boxPlanar N).getD 2 []]

/-- `split_box.py:364`: the surfaces of the second volume. -/
def boxVolume2 (N : ℕ) : List (List (BoxLine × Bool)) :=
  [(boxPlanar N).getD 1 []] ++ (slice 1 (N - 2) N).map (boxLateral N) ++ (List.range 3).map (boxOuter N)
    ++ [(boxPlanar N).getD 3 []]

end Verif.SplitBox
