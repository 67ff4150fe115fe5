import Verif.Model.Geometry
import Verif.Model.Packing

/-!
`cpp/Contact.cpp` `pack_nx` and `pack_ny`: facet normals of the quadrature surface and of the
opposite surface.

Library data: the coordinate element (`Cmap`), reference facet normals, connectivities. Assertions
are not modelled.
-/

namespace Verif.Normals

open Verif.Geometry Verif.Packing Verif.SubMesh Verif.Kernels

noncomputable section

/-- Exceptions of the two functions. -/
inductive Err where
  | unsupportedCell
  | missingConnectivity
  deriving DecidableEq, Repr

/-- `Contact.cpp:413-421`, `1098-1106`: coordinate dofs of a cell, copied from the mesh geometry. -/
def nodes (G : GeomData) (cell j k : ℕ) : ℝ := G.x (3 * G.xdof cell j + k)

/-- `Contact.cpp:424-440`, `1108-1124`: Jacobian of `cell` at the reference point `X`, inverse, and push
forward of the reference normal into the `gdim` entries from `base` on. -/
def putNormal (C : Cmap) (G : GeomData) (cell : ℕ) (X nref : ℕ → ℝ) (base : ℕ) (c : Arr ℕ) : Arr ℕ :=
  let K := C.inv (jac C (nodes G cell) X)
  loop C.gdim (fun k (c : Arr ℕ) =>
    c.put (base + k) (Elasticity.physicalFacetNormal C.gdim C.tdim K nref k)) c

/-- `Contact.cpp:341-444` `pack_nx`: normals and stride.  `pairs` is `_cell_facet_pairs.links(...)` of the
quadrature surface, `numFacets` the number of its local facets, `m` the parent-to-submesh cell map,
`point r` point number `r` of the quadrature rule and `nref f` the outward normal of reference facet
`f`. -/
def packNx (cell : CellType) (C : Cmap) (G : GeomData) (m : List ℕ × List ℕ) (pairs : List (ℕ × ℕ))
    (numFacets nq : ℕ) (point nref : ℕ → ℕ → ℝ) : Except Err (Arr ℕ × ℕ) :=
  let facets := submeshTuples m (pairs.take numFacets)
  match checkCellType cell with
  | .error _ => .error .unsupportedCell
  | .ok _ =>
    let cstride := nq * C.gdim
    if numFacets = 0 then .ok (fun _ => 0, cstride)
    else .ok (loop facets.length (fun i => loop nq (fun q =>
      let f := facets.getD i (0, 0)
      putNormal C G f.1 (point (f.2 * nq + q)) (nref f.2) (i * cstride + q * C.gdim))) (fun _ => 0),
      cstride)

/-- `Contact.cpp:986-1130` `pack_ny`.  `P` carries the contact map; `f2c`, `c2f` are the facet-cell and
cell-facet connectivities of the submesh, `none` if not created; `point r` is the reference contact
point number `r`. -/
def packNy (cell : CellType) (C : Cmap) (G : GeomData) (P : PairData) (f2c c2f : Option (ℕ → List ℕ))
    (point nref : ℕ → ℕ → ℝ) : Except Err (Arr ℕ × ℕ) :=
  let cstride := P.nq * C.gdim
  if P.numFacets = 0 then .ok (fun _ => 0, cstride)
  else match checkCellType cell with
    | .error _ => .error .unsupportedCell
    | .ok _ =>
      match f2c, c2f with
      | none, _ => .error .missingConnectivity
      | some _, none => .error .missingConnectivity
      | some f2c, some c2f =>
        .ok (loop P.numFacets (fun i => loop P.nq (fun q c =>
          let f := P.facets (i * P.nq + q)
          if f < 0 then c
          else
            let cand := (f2c f.toNat).headD 0
            let localIdx := (c2f cand).idxOf f.toNat
            putNormal C G cand (point (i * P.nq + q)) (nref localIdx) (i * cstride + q * C.gdim) c))
          (fun _ => 0), cstride)

end

end Verif.Normals
