import Verif.Lib.Arr
import Verif.Model.Elasticity
import Verif.Model.Dispatch
import Mathlib.Algebra.BigOperators.Group.Finset.Basic

/-!
`cpp/geometric_quantities.cpp` (`pull_back_nonaffine`, `push_forward_facet_normal`,
`compute_circumradius`), `cpp/utils.cpp` (`pull_back`, `entities_to_geometry_dofs`) and
`cpp/coefficients.cpp` (`pack_circumradius`).

The views of the work arrays are separate variables here; that they do not overlap is C25.
Library data: tabulated coordinate basis (`Cmap`), inverse and determinant of the Jacobian.
Sums written `∑` are the accumulation loops of the source.
-/

namespace Verif.Geometry

open Finset Verif.Kernels

noncomputable section

/-- The coordinate element of a cell: dimensions, whether it is affine, basis values and derivatives
at a reference point, and the library's inverse of a `gdim × tdim` Jacobian
(`CoordinateElement::tabulate`, `is_affine`, `compute_jacobian_inverse`). -/
structure Cmap where
  gdim : ℕ
  tdim : ℕ
  ndofs : ℕ
  affine : Bool
  phi : (ℕ → ℝ) → ℕ → ℝ
  dphi : (ℕ → ℝ) → ℕ → ℕ → ℝ
  inv : (ℕ → ℕ → ℝ) → ℕ → ℕ → ℝ

/-- `geometric_quantities.cpp:55-61`: `xk = cell_geometry * phi`. -/
def push (C : Cmap) (geo : ℕ → ℕ → ℝ) (X : ℕ → ℝ) (i : ℕ) : ℝ :=
  ∑ j ∈ range C.ndofs, geo j i * C.phi X j

/-- `CoordinateElement::compute_jacobian(dphi, geometry, J)` on a zeroed `J`
(`geometric_quantities.cpp:63-70`, `122-133`, `144-150`, `utils.cpp:86-106`, `165-175`). -/
def jac (C : Cmap) (geo : ℕ → ℕ → ℝ) (X : ℕ → ℝ) (i d : ℕ) : ℝ :=
  ∑ j ∈ range C.ndofs, geo j i * C.dphi X d j

/-- `geometric_quantities.cpp:73-77`: `dX = K (x - xk)`. -/
def increment (C : Cmap) (geo : ℕ → ℕ → ℝ) (x X : ℕ → ℝ) (i : ℕ) : ℝ :=
  ∑ j ∈ range C.gdim, C.inv (jac C geo X) i j * (x j - push C geo X j)

/-- What the C++ code throws. -/
inductive Err where
  | notConverged
  | invalidArgument
  deriving DecidableEq, Repr

/-- `geometric_quantities.cpp:49-97`: the iteration from `X`, `n` iterations left; running out of
iterations throws (93-97), after `X` has been written. -/
def newtonPullBack (C : Cmap) (geo : ℕ → ℕ → ℝ) (x : ℕ → ℝ) (tol : ℝ) :
    ℕ → (ℕ → ℝ) → Except Err (ℕ → ℝ)
  | 0, _ => .error .notConverged
  | n + 1, X =>
    let dX := increment C geo x X
    let X' := fun i => dX i + X i
    if Real.sqrt (∑ i ∈ range C.tdim, dX i * dX i) < tol then .ok X'
    else newtonPullBack C geo x tol n X'

/-- `geometric_quantities.cpp:21-96` `pull_back_nonaffine`: start at the origin (37-40). -/
def pullBackNonaffine (C : Cmap) (geo : ℕ → ℕ → ℝ) (x : ℕ → ℝ) (tol : ℝ) (maxIt : ℕ) :
    Except Err (ℕ → ℝ) :=
  newtonPullBack C geo x tol maxIt (fun _ => 0)

/-- `geometric_quantities.cpp:98-160` `push_forward_facet_normal`: the normal at `x` of the facet with
reference normal `nref` (default tolerance 1e-8 and 10 iterations, `geometric_quantities.h:70`). -/
def pushForwardFacetNormal (C : Cmap) (geo : ℕ → ℕ → ℝ) (x nref : ℕ → ℝ) : Except Err (ℕ → ℝ) :=
  if C.affine then
    .ok (Elasticity.physicalFacetNormal C.gdim C.tdim (C.inv (jac C geo (fun _ => 0))) nref)
  else
    match pullBackNonaffine C geo x 1e-8 10 with
    | .error e => .error e
    | .ok X => .ok (Elasticity.physicalFacetNormal C.gdim C.tdim (C.inv (jac C geo X)) nref)

/-- Output of `pull_back`: Jacobian, inverse, determinant and reference point of each point. -/
structure PullBack where
  J : ℕ → ℕ → ℕ → ℝ
  K : ℕ → ℕ → ℕ → ℝ
  detJ : ℕ → ℝ
  X : ℕ → ℕ → ℝ

/-- `utils.cpp:67-185` `pull_back` for the points `x p`, `p < n`.  `det` is
`compute_jacobian_determinant`; `library` is the result of the library's own
`CoordinateElement::pull_back_nonaffine` (152).  Affine: `pull_back_affine` (130) is
`X = K (x - x0)`, with `x0` the first node (126-128); the first Jacobian, inverse and determinant are
copied to all points (132-142).  Entries of points `p ≥ n` are left as they were. -/
def pullBack (C : Cmap) (det : (ℕ → ℕ → ℝ) → ℝ) (library : (ℕ → ℝ) → ℕ → ℝ) (geo : ℕ → ℕ → ℝ)
    (n : ℕ) (x : ℕ → ℕ → ℝ) (old : PullBack) : PullBack :=
  if C.affine then
    let J0 := jac C geo (fun _ => 0)
    let K0 := C.inv J0
    let d0 := det J0
    { J := loop (n - 1) (fun p J => Function.update J (p + 1) J0) (Function.update old.J 0 J0)
      K := loop (n - 1) (fun p K => Function.update K (p + 1) K0) (Function.update old.K 0 K0)
      detJ := loop (n - 1) (fun p d => Function.update d (p + 1) d0) (Function.update old.detJ 0 d0)
      X := loop n (fun p X => Function.update X p
        (fun i => ∑ j ∈ range C.gdim, K0 i j * (x p j - geo 0 j))) old.X }
  else
    let X := loop n (fun p X => Function.update X p (library (x p))) old.X
    { J := loop n (fun p J => Function.update J p (jac C geo (X p))) old.J
      K := loop n (fun p K => Function.update K p (C.inv (jac C geo (X p)))) old.K
      detJ := loop n (fun p d => Function.update d p (det (jac C geo (X p)))) old.detJ
      X := X }

/-- Squared length of the edge between nodes `a` and `b` (`geometric_quantities.cpp:183-191`,
`207-222`). -/
def edgeSq (gdim : ℕ) (geo : ℕ → ℕ → ℝ) (a b : ℕ) : ℝ :=
  ∑ i ∈ range gdim, (geo a i - geo b i) ^ 2

/-- `geometric_quantities.cpp:163-240` `compute_circumradius`; the volumes of the reference triangle
and tetrahedron are `1/2` and `1/6`. -/
def computeCircumradius (cell : CellType) (gdim : ℕ) (detJ : ℝ) (geo : ℕ → ℕ → ℝ) : Except Err ℝ :=
  match cell with
  | .triangle =>
    let area := 1 / 2 * |detJ|
    let s0 := Real.sqrt (edgeSq gdim geo 0 1)
    let s1 := Real.sqrt (edgeSq gdim geo 1 2)
    let s2 := Real.sqrt (edgeSq gdim geo 2 0)
    .ok (s0 * s1 * s2 / (4 * area))
  | .tetrahedron =>
    let vol := |detJ| * (1 / 6)
    let aA := Real.sqrt (edgeSq gdim geo 0 1) * Real.sqrt (edgeSq gdim geo 2 3)
    let bB := Real.sqrt (edgeSq gdim geo 0 2) * Real.sqrt (edgeSq gdim geo 1 3)
    let cC := Real.sqrt (edgeSq gdim geo 0 3) * Real.sqrt (edgeSq gdim geo 1 2)
    .ok (Real.sqrt ((aA + bB + cC) * (aA + bB - cC) * (aA - bB + cC) * (-aA + bB + cC)) / (24 * vol))
  | _ => .error .invalidArgument

/-- `CoordinateElement::compute_jacobian_determinant` (library): determinant of a square Jacobian,
`sqrt(det(Jᵀ J))` otherwise (only the shapes reached here). -/
def jacDet (tdim gdim : ℕ) (J : ℕ → ℕ → ℝ) : ℝ :=
  if tdim = 2 ∧ gdim = 2 then J 0 0 * J 1 1 - J 0 1 * J 1 0
  else if tdim = 3 ∧ gdim = 3 then
    J 0 0 * (J 1 1 * J 2 2 - J 1 2 * J 2 1) - J 0 1 * (J 1 0 * J 2 2 - J 1 2 * J 2 0)
      + J 0 2 * (J 1 0 * J 2 1 - J 1 1 * J 2 0)
  else
    let g := fun a b => ∑ i ∈ range gdim, J i a * J i b
    Real.sqrt (g 0 0 * g 1 1 - g 0 1 * g 1 0)

/-- `coefficients.cpp:557-648` `pack_circumradius`; `facets` are (cell, local facet) pairs, `geo c` the
nodes of cell `c`, `q f` the quadrature point of local facet `f`.  Cell types other than those of
`check_cell_type` throw. -/
def packCircumradius (cell : CellType) (C : Cmap) (q : ℕ → ℕ → ℝ) (geo : ℕ → ℕ → ℕ → ℝ)
    (facets : List (ℕ × ℕ)) : Except Err (List ℝ) :=
  if !C.affine then .error .invalidArgument
  else match checkCellType cell with
    | .error _ => .error .invalidArgument
    | .ok _ => facets.mapM (fun p =>
        computeCircumradius cell C.gdim (jacDet C.tdim C.gdim (jac C (geo p.1) (q p.2))) (geo p.1))

/-! ### `entities_to_geometry_dofs` -/

/-- Connectivity and geometry of a mesh for entities of one dimension: cells of an entity, entities of
a cell, geometry nodes of a cell (`xdofs`), local nodes of the closure of a local entity
(`closure_dofs[dim]`) and `num_entity_closure_dofs(dim)`. -/
structure EntityMesh where
  e2c : ℕ → List ℕ
  c2e : ℕ → List ℕ
  xdofs : ℕ → ℕ → ℕ
  closure : ℕ → ℕ → ℕ
  n : ℕ

/-- `utils.cpp:779-800`: body of the loop for entity `i`; the result array starts filled with -1
(764-766). -/
def entityRow (M : EntityMesh) (i : ℕ) (idx : ℤ) (out : ℕ → ℤ) : ℕ → ℤ :=
  if idx < 0 then out
  else
    let cell := (M.e2c idx.toNat).headD 0
    let localEntity := (M.c2e cell).idxOf idx.toNat
    loop M.n (fun j out => Function.update out (i * M.n + j) (M.xdofs cell (M.closure localEntity j) : ℤ)) out

/-- `utils.cpp:741-803` `entities_to_geometry_dofs`: data and offsets of the adjacency list. -/
def entitiesToGeometryDofs (M : EntityMesh) (entities : List ℤ) : (ℕ → ℤ) × (ℕ → ℕ) :=
  (loop entities.length (fun i out => entityRow M i (entities.getD i 0) out) (fun _ => -1),
   loop entities.length (fun i o => Function.update o (i + 1) ((i + 1) * M.n)) (fun _ => 0))

end

end Verif.Geometry
