import Mathlib.Data.List.Basic
import Mathlib.Data.Real.Basic

/-!
`python/dolfinx_contact/meshing/split_box.py`: the polygon of a sub domain, the physical groups of
the generated geometry and the merging of two meshes; and the variable bounds of
`python/dolfinx_contact/one_sided/snes_against_plane.py`.

Gmsh itself is not modelled: a line or surface is the index at which it was created.
-/

namespace Verif.Meshing

/-- The exceptions of `get_surface_points`: `argwhere(...)[0, 0]` of an empty array (lines 62-63) and
the explicit `RuntimeError("Invalid domains")` (line 84). -/
inductive Err | index | invalid
  deriving DecidableEq, Repr

variable {P : Type}

/-- `split_box.py:57-86` `get_surface_points`.  `points` is the table of corner coordinates (a Python
list; an index outside it is not modelled), `line` is `line_pts`.  `i0 == i1 - 1` on signed numpy
integers is written `i0 + 1 = i1`. -/
def getSurfacePoints (domain : List ℕ) (points : ℕ → P) (line : List P) : Except Err (List P) :=
  let pts := domain.map points                                        -- line 60
  if 4 ∉ domain ∨ 5 ∉ domain then .error .index else                  -- lines 62-63
  let i0 := domain.idxOf 4
  let i1 := domain.idxOf 5
  let numPts := pts.length
  if i0 + 1 = i1 then                                                 -- line 65
    if i0 = 0 then .ok (line ++ pts.drop (i1 + 1))
    else if i1 + 1 = numPts then .ok (line ++ pts.take i0)
    else .ok (line ++ pts.drop (i1 + 1) ++ pts.take i0)
  else if i1 + 1 = i0 then                                            -- line 72
    if i1 = 0 then .ok (line.reverse ++ pts.drop (i0 + 1))
    else if i0 + 1 = numPts then .ok (line.reverse ++ pts.take i1)
    else .ok (line.reverse ++ pts.drop (i0 + 1) ++ pts.take i1)
  else if i0 = 0 ∧ i1 + 1 = numPts then                               -- line 79
    .ok (line.reverse ++ (pts.drop 1).dropLast)
  else if i1 = 0 ∧ numPts - 1 ≠ 0 then                                -- line 81
    .ok (line ++ (pts.drop 1).dropLast)
  else .error .invalid                                                -- line 84

/-- A Python slice `range(n)[a:b]` with nonnegative bounds, as the list of selected indices. -/
def slice (a b n : ℕ) : List ℕ := List.range' a (min b n - a)

/-- Python `range(a, b)`: `a, a + 1, ..., b - 1`, empty if `b ≤ a`. -/
def pyRange (a b : ℕ) : List ℕ := List.range' a (b - a)

/-- `split_box.py:204-206` (`create_surface_mesh`): the three groups of boundary lines (tags[1],
tags[2], tags[3]) as positions in `lines`; `n = len(line_pts)`, `N = len(lines)`. -/
def surfaceGroups (n N : ℕ) : List (List ℕ) :=
  [0 :: slice n N N, slice 1 (n / 2) N, slice (n / 2) n N]

/-- The two end points of `lines[i] = addLine(ps[i - 1], ps[i])`, `split_box.py:199` (and 251, 332,
428, 479): positions in `ps`, where `ps[-1]` is the last one. -/
def lineEnds (N i : ℕ) : ℕ × ℕ := (if i = 0 then N - 1 else i - 1, i)

/-- `split_box.py:447-457` (`create_tet_mesh`): the groups tags[1], tags[2], tags[3] of the lateral
surfaces as positions in `surfaces`, `N = len(surfaces)`.  The planar end surfaces `surface1`,
`surface2` (both in tags[1] only) are left out. -/
def tetGroups (N : ℕ) : List (List ℕ) :=
  [[0, N - 2, N - 1], pyRange 1 ((N - 2) / 2), pyRange ((N - 2) / 2) (N - 2)]

/-- `split_box.py:488-500` (`create_hex_mesh`): the groups tags[1], tags[2], tags[3] as positions in
`model.getEntities(2)`, `M = len(surfaces)`. -/
def hexGroups (M : ℕ) : List (List ℕ) :=
  [[0, 1, M - 3, M - 2, M - 1], pyRange 2 ((M - 3) / 2), pyRange ((M - 3) / 2) (M - 3)]

/-- `split_box.py:259` (`create_unsplit_box_2d`): the positions in `lines1` of the lines in the
boundary group (`lines2`, also in it, is left out). -/
def unsplitGroup2d (N : ℕ) : List ℕ := 0 :: slice (N - 2) N N

/-- `split_box.py:372-377` (`create_unsplit_box_3d`, tetrahedra): positions in `surfaces1` of the
boundary group (tag 2) and of the interior group (tag 3, `surfaces1[1:-2]`).  The planar end surfaces
and `surfaces2`, all in the boundary group, are left out. -/
def unsplitGroups3d (N : ℕ) : List (List ℕ) := [[0, N - 1], slice 1 (N - 2) N]

/-- The arrays returned by `retrieve_mesh_data` (lines 88-145): coordinates, cells with values,
marked facets with values. -/
structure MeshData (P : Type) where
  x : List P
  cells : List (List ℕ)
  cellData : List ℤ
  facets : List (List ℕ)
  facetValues : List ℤ

/-- `split_box.py:564-568` (2D) and `642-646` (3D): merging of the two meshes.  64 and 32 bit index
types are not modelled. -/
def merge (a b : MeshData P) : MeshData P where
  facets := a.facets ++ b.facets.map (fun f => f.map (· + a.x.length))
  facetValues := a.facetValues ++ b.facetValues
  cellData := a.cellData ++ b.cellData
  cells := a.cells ++ b.cells.map (fun c => c.map (· + a.x.length))
  x := a.x ++ b.x

/-- `snes_against_plane.py:154-158`: the array `lims` of length `2 * gdim`; `lims[-2]` is entry
`2 * gdim - 2`. -/
def lims (gdim : ℕ) (planeLoc : ℝ) (k : ℕ) : ℝ :=
  if k = 2 * gdim - 2 then -planeLoc else if k % 2 = 0 then -10000000 else 10000000

/-- `snes_against_plane.py:166-170` `_constraint_l` at a node `x`: component `i` of the lower bound. -/
def umin (gdim : ℕ) (planeLoc : ℝ) (x : ℕ → ℝ) (i : ℕ) : ℝ := lims gdim planeLoc (2 * i) - x i

/-- `snes_against_plane.py:160-164` `_constraint_u` at a node `x`: component `i` of the upper bound. -/
def umax (gdim : ℕ) (planeLoc : ℝ) (x : ℕ → ℝ) (i : ℕ) : ℝ := lims gdim planeLoc (2 * i + 1) - x i

end Verif.Meshing
