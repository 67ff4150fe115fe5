import Mathlib.Analysis.SpecialFunctions.Trigonometric.Arctan
import Verif.Model.Meshing

/-!
`python/dolfinx_contact/meshing/christmas_tree.py`: the jagged curve, the closed polygons made of it and
the physical groups of their edges.  Doubles are reals.  The calls of Gmsh that create points, lines,
surfaces and the mesh are left out: points are positions in the coordinate arrays, lines and lateral
surfaces positions in the lists of the program.
-/

namespace Verif.Tree

noncomputable section

/-- `christmas_tree.py:38-41`: height of the curve at `x`. -/
def curve (t : ℝ) (r0 r1 : ℝ → ℝ) (x : ℝ) : ℝ :=
  r0 x * Real.arctan (t * Real.sin (Real.pi * x) / (1 - t * Real.cos (Real.pi * x))) / t + r1 x * x

/-- `christmas_tree.py:42`: distance of the candidate from the last point. -/
def step (a b : ℝ × ℝ) : ℝ := Real.sqrt ((b.2 - a.2) ^ 2 + (b.1 - a.1) ^ 2)

/-- `christmas_tree.py:36-43`, the inner loop `while ds > 2 * dx` after its test has succeeded, from trial width
`xp`: it ends with point `p`.  (A loop that does not end is a relation without result.) -/
inductive Inner (f : ℝ → ℝ) (dx : ℝ) (last : ℝ × ℝ) : ℝ → ℝ × ℝ → Prop
  | stop (xp : ℝ) : ¬ step last (last.1 + xp, f (last.1 + xp)) > 2 * dx →
      Inner f dx last xp (last.1 + xp, f (last.1 + xp))
  | again (xp : ℝ) (p : ℝ × ℝ) : step last (last.1 + xp, f (last.1 + xp)) > 2 * dx →
      Inner f dx last (xp * (8 / 10)) p → Inner f dx last xp p

/-- What a call of `jagged_curve` ends with: the points, `ZeroDivisionError` (`npoints = 0`, line 28) or
`UnboundLocalError` (`x` read in line 45 when the inner loop has not been entered). -/
inductive Result
  | points (ps : List (ℝ × ℝ))
  | zeroDivision
  | unbound

/-- `christmas_tree.py:29-48`, the outer loop; `ps` are the points so far, the last one `last`. -/
inductive Outer (f : ℝ → ℝ) (dx xmax : ℝ) : List (ℝ × ℝ) → ℝ × ℝ → Result → Prop
  | stop (ps : List (ℝ × ℝ)) (last : ℝ × ℝ) : ¬ last.1 < xmax → Outer f dx xmax ps last (.points (ps ++ [last]))
  | next (ps : List (ℝ × ℝ)) (last p : ℝ × ℝ) (r : Result) : last.1 < xmax → 4 * dx > 2 * dx →
      Inner f dx last dx p → Outer f dx xmax (ps ++ [last]) p r → Outer f dx xmax ps last r
  | unbound (ps : List (ℝ × ℝ)) (last : ℝ × ℝ) : last.1 < xmax → ¬ 4 * dx > 2 * dx →
      Outer f dx xmax ps last .unbound

/-- `christmas_tree.py:25-48` `jagged_curve`: the call ends with `r`. -/
def JaggedCurve (npoints : ℤ) (t : ℝ) (r0 r1 : ℝ → ℝ) (xmax : ℝ) (r : Result) : Prop :=
  if npoints = 0 then r = .zeroDivision
  else Outer (curve t r0 r1) (xmax / npoints) xmax [] (0, 0) r

/-! ### the polygons -/

/-- `np.linspace(a, b, n)`, library function by contract. -/
def linspace (a b : ℝ) (n : ℕ) : List ℝ := (List.range n).map (fun i : ℕ => a + (b - a) * i / (n - 1 : ℕ))

/-- Python `xs[1:-1]`. -/
def inside {α : Type} (xs : List α) : List α := (xs.drop 1).dropLast

/-- `christmas_tree.py:65-71` (3D), `173-180` (2D): corners of the inner tree; `pts` is the curve, `nc` the number of
points of the bottom.  `x[-1]`, `y[-1]` of the nonempty arrays are `last`. -/
def innerTree (pts : List (ℝ × ℝ)) (nc : ℕ) : List (ℝ × ℝ) :=
  let last := pts.getLastD (0, 0)
  pts.drop 1 ++ (inside (linspace last.2 (-last.2) nc)).map (fun y => (last.1, y))
    ++ ((pts.drop 1).map (fun p => (p.1, -p.2))).reverse

/-- `christmas_tree.py:104-119` (3D, `factor = 1.5`), `198-213` (2D, `factor = 1.2`): corners of the surrounding body. -/
def outerTree (pts : List (ℝ × ℝ)) (nc : ℕ) (factor : ℝ) : List (ℝ × ℝ) :=
  let pts := pts.map (fun p => (p.1 + 1 / 100, p.2 + 1 / 10))
  let last := pts.getLastD (0, 0)
  let xf := linspace (-1) last.1 nc
  let top := last.2 * factor
  let yg := inside (linspace top (-top) nc)
  let yh := inside (linspace last.2 top 8)
  (yh.reverse.map (fun y => (last.1, -y))) ++ (pts.map (fun p => (p.1, -p.2))).reverse ++ pts
    ++ yh.map (fun y => (last.1, y)) ++ (xf.map (fun x => (x, top))).reverse ++ yg.map (fun y => (-1, y))
    ++ xf.map (fun x => (x, -top))

open Verif.Meshing (slice)

/-- `christmas_tree.py:93` (3D), `188` (2D): `tree_inner` as positions in the lines or lateral surfaces; `X = len(x)`,
`B = len(xb)`, `N` of them. -/
def treeInner (X B N : ℕ) : List ℕ := slice (X + B - 2) N N ++ slice 0 (X - 1) N

/-- `christmas_tree.py:94` (3D), `189` (2D): `tree_bottom`. -/
def treeBottom (X B N : ℕ) : List ℕ := slice (X - 1) (X + B - 2) N

/-- Python `xs[a:b]` of a list with bounds that are not negative. -/
def pySlice {α : Type} (xs : List α) (a b : ℕ) : List α := (xs.take b).drop a

/-- `christmas_tree.py:95-101` (3D), `190-196` (2D): the physical groups of the inner tree in the order of their tags:
the parts of `tree_inner`, then `tree_bottom` (which has the lower tag 3).  `split = 0` raises `ZeroDivisionError` in
line 95 / 190 and is not modelled. -/
def innerGroups (X B N split : ℕ) : List (List ℕ) :=
  let inner := treeInner X B N
  let num := inner.length / split
  (List.range (split - 1)).map (fun i => pySlice inner (i * num) ((i + 1) * num))
    ++ [inner.drop ((split - 1) * num)] ++ [treeBottom X B N]

/-- `christmas_tree.py:138` (3D), `218` (2D): `tree_outer`; `h = len(xh)`. -/
def treeOuter (h X N : ℕ) : List ℕ := slice (h + 1) (h + 2 * X) N

/-- `christmas_tree.py:219`: `box` of the two-dimensional mesh. -/
def box2D (h X N : ℕ) : List ℕ := slice 0 (h + 1) N ++ slice (h + 2 * X) N N

/-- `christmas_tree.py:139`: `box` of the three-dimensional mesh. -/
def box3D (h X N : ℕ) : List ℕ := slice 0 h N ++ slice (1 + h + 2 * X) N N

/-- `christmas_tree.py:141-152` (3D), `223-232` (2D): the parts of `tree_outer`; `num` is `num_surfaces` / `num_lines`, the
length of the parts of `tree_inner`. -/
def outerParts (outer : List ℕ) (num split : ℕ) : List (List ℕ) :=
  (List.range split).map (fun i =>
    let start := if i = 0 then 0 else i * num + 1
    let stop := if i = split - 1 then outer.length else (i + 1) * num + 1
    pySlice outer start stop)

/-- `christmas_tree.py:218-232`: the groups of the surrounding body in two dimensions, `box` first. -/
def outerGroups2D (h X N num split : ℕ) : List (List ℕ) :=
  box2D h X N :: outerParts (treeOuter h X N) num split

/-- `christmas_tree.py:138-152`: the groups of the lateral surfaces of the surrounding body in three dimensions. -/
def outerGroups3D (h X N num split : ℕ) : List (List ℕ) :=
  box3D h X N :: outerParts (treeOuter h X N) num split

end

end Verif.Tree
