import Verif.Model.Geometry
import Verif.Model.Normals

/-!
`cpp/utils.h` `compute_projection_map` and `cpp/utils.cpp` `compute_distance_map` (closest point
mode; the ray tracing map is in `Model/RayTracing.lean`).

Library functions are parameters: `compute_closest_entity`, `compute_distance_gjk`, the coordinate
element.  The geometry array holds three components per node.
-/

namespace Verif.Projection

open Verif.Geometry Verif.Packing Verif.Kernels Verif.Normals

noncomputable section

/-- The candidate mesh: cell type, coordinate element, geometry, facet-cell and cell-facet
connectivities (`none`: not created), local nodes `closure lf j` of local facet `lf` and their
number `nf`. -/
structure Cand where
  cell : CellType
  C : Cmap
  G : GeomData
  f2c : Option (ℕ → List ℕ)
  c2f : Option (ℕ → List ℕ)
  closure : ℕ → ℕ → ℕ
  nf : ℕ

/-- Library functions: `compute_closest_entity` for a list of facets and a point;
`compute_distance_gjk(nodes, point)`, the vector from the point to the convex hull of `n` nodes;
`compute_jacobian_determinant`; the library's `pull_back_nonaffine`. -/
structure Library where
  closest : List ℕ → (ℕ → ℝ) → ℕ
  gjk : (n : ℕ) → (ℕ → ℕ → ℝ) → (ℕ → ℝ) → ℕ → ℝ
  det : (ℕ → ℕ → ℝ) → ℝ
  pullBack : (ℕ → ℕ → ℝ) → (ℕ → ℝ) → ℕ → ℝ

/-- Linked facet and reference point of every point. -/
abbrev Map := (ℕ → ℤ) × (ℕ → ℕ → ℝ)

/-- `utils.h:399-546` `compute_projection_map` for `n` points.  The point on the facet is
`points + dist_vec` (474-482); `pull_back` is called for one point at a time (533-534) and its
reference point copied (536). -/
def projectionMap (M : Cand) (L : Library) (tuples : List (ℕ × ℕ)) (n : ℕ) (points : ℕ → ℕ → ℝ)
    (old : PullBack) : Except Normals.Err Map :=
  if tuples = [] then .ok (fun _ => -1, fun _ _ => 0)
  else match M.c2f with
    | none => .error .missingConnectivity
    | some c2f =>
      let facets := tuples.map (fun t => (c2f t.1).getD t.2 0)
      let closest := (List.range n).map (fun i => L.closest facets (points i))
      match checkCellType M.cell with
      | .error _ => .error .unsupportedCell
      | .ok _ =>
        match M.f2c with
        | none => .error .missingConnectivity
        | some f2c =>
          let geom := entitiesToGeometryDofs ⟨f2c, c2f, M.G.xdof, M.closure, M.nf⟩
            (closest.map (fun f : ℕ => (f : ℤ)))
          let candidateX := fun i l => points i l +
            L.gjk M.nf (fun j k => M.G.x (3 * (geom.1 (i * M.nf + j)).toNat + k)) (points i) l
          .ok (fun i => (closest.getD i 0 : ℤ), fun i =>
            if i < n then
              let geo := nodes M.G ((f2c (closest.getD i 0)).headD 0)
              (pullBack M.C L.det (L.pullBack geo) geo 1 (fun _ => candidateX i) old).X 0
            else fun _ => 0)

/-- `utils.cpp:1040-1063`: quadrature points padded to three components. -/
def padded (gdim : ℕ) (qp : Arr ℕ) (i k : ℕ) : ℝ :=
  loop gdim (fun k (a : Arr ℕ) => a.put k (qp (i * gdim + k))) (fun _ => 0) k

/-- `ContactMode` (`Contact.h`). -/
inductive Mode where
  | closestPoint
  | rayTracing
  deriving DecidableEq

/-- Exceptions of `compute_distance_map`. -/
inductive DistErr where
  | map (e : Normals.Err)
  | invalidDim
  deriving DecidableEq

/-- `utils.cpp:985-1128` `compute_distance_map`.  `facets` are the quadrature (cell, local facet) pairs;
quadrature mesh and candidate mesh have the same cell type, geometry dimension `gdim` and topological
dimension `tdim`; `Gq` and `phi r` are geometry and coordinate basis values of the quadrature mesh at
point `r` of the rule, `off` its offsets; `ray` is the result of `compute_raytracing_map`. -/
def distanceMap (mode : Mode) (gdim tdim : ℕ) (M : Cand) (L : Library) (Gq : GeomData) (nq : ℕ)
    (off : ℕ → ℕ) (phi : ℕ → ℕ → ℝ) (facets tuples : List (ℕ × ℕ)) (ray : Except Normals.Err Map)
    (old : PullBack) : Except DistErr Map :=
  match checkCellType M.cell with
  | .error _ => .error (.map .unsupportedCell)
  | .ok _ =>
    match mode with
    | .closestPoint =>
      let qp := physicalPoints Gq nq gdim off phi facets (fun _ => 0)
      if gdim ≠ 2 ∧ gdim ≠ 3 then .error .invalidDim
      else if tdim = 2 ∨ tdim = 3 then
        (projectionMap M L tuples (facets.length * nq) (padded gdim qp) old).mapError .map
      else .error .invalidDim
    | .rayTracing =>
      if tdim = 2 then
        if gdim = 2 ∨ gdim = 3 then ray.mapError .map else .error .invalidDim
      else if tdim = 3 then ray.mapError .map
      else .error .invalidDim

end

end Verif.Projection
