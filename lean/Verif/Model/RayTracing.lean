import Verif.Lib.Arr
import Verif.Model.Dispatch
import Verif.Model.Search
import Mathlib.Algebra.BigOperators.Fin
import Mathlib.Analysis.Real.Sqrt
import Mathlib.Analysis.SpecialFunctions.Sqrt

/-!
`cpp/RayTracing.h`, `cpp/RayTracing.cpp` and `compute_raytracing_map` in `cpp/utils.h`.
Real numbers instead of doubles.
-/

namespace Verif.Ray

open Finset Verif.Kernels

noncomputable section

/-! ### tangents -/

/-- `RayTracing.h:54-56`: `std::max_element` with `norm(a) < norm(b)`: position of the first entry of
largest square. -/
def maxPos (n : ℕ → ℝ) : ℕ → ℕ
  | 0 => 0
  | k + 1 => if n (maxPos n k) * n (maxPos n k) < n (k + 1) * n (k + 1) then k + 1 else maxPos n k

/-- `RayTracing.h:66-71`: first tangent before normalisation: ones, and
`-sum_{i != max} n[i] / n[max]` at the position of the maximum. -/
def tangent0 (gdim : ℕ) (n : ℕ → ℝ) (i : ℕ) : ℝ :=
  let m := maxPos n (gdim - 1)
  if i = m then 0 - ∑ j ∈ (range gdim).filter (· ≠ m), n j / n m else 1

/-- `RayTracing.h:74-79`: second tangent (`gdim == 3`) before normalisation, the cross product. -/
def tangent1 (t n : ℕ → ℝ) (i : ℕ) : ℝ :=
  if i = 0 then t 1 * n 2 - t 2 * n 1
  else if i = 1 then t 2 * n 0 - t 0 * n 2
  else t 0 * n 1 - t 1 * n 0

/-- `RayTracing.h:29-42` `normalize`, one row. -/
def normalize (len : ℕ) (v : ℕ → ℝ) (i : ℕ) : ℝ := v i / Real.sqrt (∑ j ∈ range len, v j * v j)

/-- `RayTracing.h:49-81` `compute_tangents`: row `r`, component `i`. -/
def computeTangents (gdim : ℕ) (n : ℕ → ℝ) (r i : ℕ) : ℝ :=
  if r = 0 then normalize gdim (tangent0 gdim n) i
  else normalize gdim (tangent1 (tangent0 gdim n) n) i

/-! ### storage -/

/-- `RayTracing.h:111-122` `distribution`. -/
def storageSizes (tdim gdim : ℕ) : List ℕ :=
  [tdim * (tdim - 1), tdim, gdim, tdim - 1, tdim - 1, gdim * tdim, gdim * (tdim - 1),
    (gdim - 1) * (tdim - 1), (tdim - 1) * (gdim - 1), gdim - 1, (gdim - 1) * gdim, gdim]

/-- `RayTracing.h:123-126`: `_offsets` by `partial_sum`; the buffer has size `_offsets[12]`. -/
def storageOffset (tdim gdim k : ℕ) : ℕ := ((storageSizes tdim gdim).take k).sum

/-- `RayTracing.h:129-202`: the views in order of declaration as (start, shape). -/
def storageViews (tdim gdim : ℕ) : List (ℕ × List ℕ) :=
  let o := storageOffset tdim gdim
  [(o 0, [tdim, tdim - 1]), (o 1, [tdim]), (o 2, [gdim]), (o 3, [tdim - 1]), (o 4, [tdim - 1]),
    (o 5, [gdim, tdim]), (o 6, [gdim, tdim - 1]), (o 7, [gdim - 1, tdim - 1]),
    (o 8, [tdim - 1, gdim - 1]), (o 9, [gdim - 1]), (o 10, [gdim - 1, gdim]), (o 11, [gdim])]

/-- `geometric_quantities.cpp:12-18`: size allocated, with `c_shape = (tdim + 1, 1, ndofs, 1)`. -/
def pullBackSize (tdim gdim ndofs : ℕ) : ℕ := 2 * gdim * tdim + (tdim + 1) * ndofs + 9

/-- `geometric_quantities.cpp:40-47`: views `J, Xk, xk, dX, K, basis` of `pull_back_nonaffine`. -/
def pullBackViews (tdim gdim ndofs : ℕ) : List (ℕ × List ℕ) :=
  [(0, [gdim, tdim]), (gdim * tdim, [3]), (gdim * tdim + 3, [3]), (gdim * tdim + 6, [3]),
    (gdim * tdim + 9, [tdim, gdim]), (9 + 2 * gdim * tdim, [tdim + 1, ndofs])]

/-- `geometric_quantities.cpp:113-119`: views `J, X, K, basis` of `push_forward_facet_normal`. -/
def normalViews (tdim gdim ndofs : ℕ) : List (ℕ × List ℕ) :=
  [(0, [gdim, tdim]), (gdim * tdim, [3]), (gdim * tdim + 3, [tdim, gdim]),
    (3 + 2 * gdim * tdim, [tdim + 1, ndofs])]

/-! ### Newton's method on one facet -/

/-- The template instances (`RayTracing.cpp:25-55`): `tdim = gdim = 2`, `tdim = gdim = 3`, and
`tdim = 2, gdim = 3`. -/
inductive Dim where
  | d22 | d33 | d23
  deriving DecidableEq

def Dim.tdim : Dim → ℕ
  | .d22 => 2 | .d33 => 3 | .d23 => 2

def Dim.gdim : Dim → ℕ
  | .d22 => 2 | .d33 => 3 | .d23 => 3

/-- Everything `raytracing_cell` needs about the facet and the ray: the vertices of the reference
facet (`RayTracing.h:503-517`, in the order of `facets[facet_index]`), the Basix facet Jacobian
`dxi`, the coordinate element (`cmap.tabulate`), the cell geometry and the ray. -/
structure Facet where
  dim : Dim
  cell : CellType
  vertex : ℕ → ℕ → ℝ
  dxi : ℕ → ℕ → ℝ
  ndofs : ℕ
  phi : (ℕ → ℝ) → ℕ → ℝ
  dphi : (ℕ → ℝ) → ℕ → ℕ → ℝ
  coords : ℕ → ℕ → ℝ
  point : ℕ → ℝ
  tangents : ℕ → ℕ → ℝ

variable (F : Facet)

/-- `RayTracing.h:503-517` `reference_map`. -/
def refMap (xi : ℕ → ℝ) (i : ℕ) : ℝ :=
  F.vertex 0 i + ∑ j ∈ range (F.dim.tdim - 1), (F.vertex (j + 1) i - F.vertex 0 i) * xi j

/-- `CoordinateElement::push_forward`. -/
def push (X : ℕ → ℝ) (i : ℕ) : ℝ := ∑ n ∈ range F.ndofs, F.coords n i * F.phi X n

/-- `CoordinateElement::compute_jacobian`. -/
def jac (X : ℕ → ℝ) (i j : ℕ) : ℝ := ∑ n ∈ range F.ndofs, F.coords n i * F.dphi X j n

/-- `RayTracing.h:302-306`: `Gk`. -/
def resid (xi : ℕ → ℝ) (j : ℕ) : ℝ :=
  ∑ i ∈ range F.dim.gdim, (push F (refMap F xi) i - F.point i) * F.tangents j i

/-- `RayTracing.h:314-327`: `dGk = (J dxi)` against the tangents. -/
def dResid (xi : ℕ → ℝ) (i j : ℕ) : ℝ :=
  ∑ l ∈ range F.dim.gdim,
    (∑ m ∈ range F.dim.tdim, jac F (refMap F xi) l m * F.dxi m j) * F.tangents i l

/-- `RayTracing.h:329-338`: `det_dGk`. -/
def detG (xi : ℕ → ℝ) : ℝ :=
  let d := dResid F xi
  match F.dim with
  | .d22 => d 0 0
  | .d33 => d 0 0 * d 1 1 - d 0 1 * d 1 0
  | .d23 => Real.sqrt (d 0 0 * d 0 0 + d 1 0 * d 1 0)

/-- `RayTracing.h:347-351`: `dolfinx::math::inv` (1x1, 2x2) or `pinv` (2x1). -/
def invG (xi : ℕ → ℝ) (i j : ℕ) : ℝ :=
  let d := dResid F xi
  match F.dim with
  | .d22 => 1 / d 0 0
  | .d33 =>
    let det := d 0 0 * d 1 1 - d 0 1 * d 1 0
    if i = 0 then (if j = 0 then d 1 1 / det else -d 0 1 / det)
    else (if j = 0 then -d 1 0 / det else d 0 0 / det)
  | .d23 => d j 0 / (d 0 0 * d 0 0 + d 1 0 * d 1 0)

/-- `RayTracing.h:353-357`: `dxi_k`. -/
def step (xi : ℕ → ℝ) (i : ℕ) : ℝ :=
  ∑ j ∈ range (F.dim.gdim - 1), invG F xi i j * resid F xi j

/-- `RayTracing.h:359-362`: `norm_dxi`. -/
def stepNorm (xi : ℕ → ℝ) : ℝ := ∑ i ∈ range (F.dim.tdim - 1), step F xi i * step F xi i

/-- `RayTracing.h:256-266`: initial guess. -/
def xi0 (j : ℕ) : ℝ := if F.dim = .d33 then (if j = 0 then 0.5 else 0.25) else 0.5

/-- The parts of `NewtonStorage` visible after the call, and the status. -/
structure State where
  xi : ℕ → ℝ
  X : ℕ → ℝ
  x : ℕ → ℝ
  J : ℕ → ℕ → ℝ
  status : ℤ

/-- `RayTracing.h:287-372`: the Newton loop. -/
def newton (tol : ℝ) : ℕ → State → State
  | 0, s => s
  | k + 1, s =>
    let X := refMap F s.xi
    let s' : State := { s with X := X, x := push F X, J := jac F X }
    if |detG F s.xi| < tol then { s' with status := -2 }
    else if stepNorm F s.xi < tol * tol then { s' with status := 1 }
    else newton tol k { s' with xi := fun i => s.xi i - step F s.xi i }

/-- `RayTracing.h:373-400`: is the parameter outside of the facet?  `none`: the cell type throws. -/
def outOfBounds (c : CellType) (tol : ℝ) (xi : ℕ → ℝ) : Option Prop :=
  match c with
  | .tetrahedron => some (xi 0 < -tol ∨ xi 0 > 1 + tol ∨ xi 1 < -tol ∨ xi 1 > 1 - xi 0 + tol)
  | .hexahedron => some (xi 0 < -tol ∨ xi 0 > 1 + tol ∨ xi 1 < -tol ∨ xi 1 > 1 + tol)
  | .triangle => some (xi 0 < -tol ∨ xi 0 > 1 + tol)
  | .quadrilateral => some (xi 0 < -tol ∨ xi 0 > 1 + tol)
  | _ => none

open Classical in
/-- `RayTracing.h:240-402` `raytracing_cell`; `st` is the storage left by the previous call. -/
def raytracingCell (maxIter : ℕ) (tol : ℝ) (st : State) : Except KernelErr State :=
  let s := newton F tol maxIter { st with xi := xi0 F, x := fun _ => 0, status := -1 }
  match outOfBounds F.cell tol s.xi with
  | none => .error .invalidArgument
  | some out => .ok (if out then { s with status := -3 } else s)

/-- `RayTracing.h:485-529`: the loop over facets of `compute_ray`; `i` is `c / 2`. -/
def rayLoop (facets : ℕ → Facet) (maxIter : ℕ) (tol : ℝ) (total : ℕ) :
    ℕ → State → Except KernelErr (State × ℤ)
  | 0, st => .ok (st, -1)
  | k + 1, st =>
    match raytracingCell (facets (total - (k + 1))) maxIter tol st with
    | .error e => .error e
    | .ok s => if s.status > 0 then .ok (s, (total - (k + 1) : ℕ)) else rayLoop facets maxIter tol total k s

/-- Zero-initialised `NewtonStorage` (`RayTracing.h:126`), status `-1` (`435`). -/
def freshState : State := ⟨fun _ => 0, fun _ => 0, fun _ => 0, fun _ _ => 0, -1⟩

/-- `RayTracing.h:426-541` `compute_ray`: status, index into the list, point and reference point.
`facets i` is the facet problem of the `i`-th pair, set up by lines 487-517; all cells have the cell
type `cell` of the mesh. -/
def computeRay (cell : CellType) (facets : ℕ → Facet) (total maxIter : ℕ) (tol : ℝ) :
    Except KernelErr (State × ℤ) := do
  checkCellType cell
  rayLoop facets maxIter tol total total freshState

/-! ### ray tracing map -/

/-- Result of tracing one candidate: status, physical and reference point, candidate normal. -/
structure Trace where
  status : ℤ
  x : ℕ → ℝ
  X : ℕ → ℝ
  normal : ℕ → ℝ

/-- `utils.h:801-819`: `ray`, `norm`, `dot` and the filter. -/
def filtered (gdim : ℕ) (radius : ℝ) (point normal : ℕ → ℝ) (t : Trace) : ℤ :=
  let norm := ∑ l ∈ range gdim, (t.x l - point l) * (t.x l - point l)
  let dot := ∑ l ∈ range gdim, normal l * t.normal l
  if dot > 0 ∨ (radius > 0 ∧ norm > radius) then -5 else t.status

/-- `utils.h:749-826`: loop over the candidates of the patch; `status` starts at 0. -/
def pointLoop (gdim : ℕ) (radius : ℝ) (point normal : ℕ → ℝ) (trace : ℕ → Trace) :
    List ℕ → Option (ℕ × (ℕ → ℝ))
  | [] => none
  | c :: cs =>
    if filtered gdim radius point normal (trace c) > 0 then some (c, (trace c).X)
    else pointLoop gdim radius point normal trace cs

/-- `compute_projection_map` (`utils.h:399-546`) for one point: `-1` and zeros without facets,
otherwise the library's closest facet (index into the patch) and its reference point. -/
def projectionMap (cFacets : ℕ → ℤ) (patch : List ℕ) (closest : ℕ × (ℕ → ℝ)) : ℤ × (ℕ → ℝ) :=
  if patch = [] then (-1, fun _ => 0) else (cFacets (patch.getD closest.1 0), closest.2)

/-- `utils.h:700-881`: row of one quadrature facet: linked facet and reference point of every
quadrature point.  `trace q c` is the traced candidate `c` from point `q`, `closest q` the library's
closest point search among the patch. -/
def facetRow (gdim nq : ℕ) (radius : ℝ) (point normal : ℕ → ℕ → ℝ) (cFacets : ℕ → ℤ)
    (patch : List ℕ) (trace : ℕ → ℕ → Trace) (closest : ℕ → ℕ × (ℕ → ℝ)) (q : ℕ) : ℤ × (ℕ → ℝ) :=
  let hit := fun q => pointLoop gdim radius (point q) (normal q) (trace q) patch
  let missing := (List.range nq).filter (fun q => (hit q).isNone)
  match hit q with
  | some (c, X) => (cFacets c, X)
  | none =>
    if 0 < missing.length ∧ missing.length < nq then projectionMap cFacets patch (closest q)
    else (-1, fun _ => 0)

end

end Verif.Ray
