import Verif.Model.Ghosting
import Verif.Lib.Arr

/-!
`cpp/SubMesh.cpp` and `cpp/utils.cpp:240-285` `update_geometry`.
`create_submesh` is a library function: its cell map is taken to be the sorted cell list passed
to it, its vertex/geometry maps are arbitrary parameters.
-/

namespace Verif.SubMesh

open Verif.Entities Verif.Ghosting

/-- `SubMesh.cpp:18-33`: cells of the pairs, sorted, duplicates removed (also `_parent_cells`). -/
def parentCells (pairs : List (ℕ × ℕ)) : List ℕ :=
  uniqueAdj (stableSort (fun c : ℕ => (c : ℤ)) (pairs.map Prod.fst))

/-- `SubMesh.cpp:60-62`: `marked_cells`. -/
def markCells (numCells : ℕ) (cells : List ℕ) : List ℕ :=
  cells.foldl (fun m c => m.set c 1) (List.replicate numCells 0)

/-- `SubMesh.cpp:64-77`: data and offsets of `_mesh_to_submesh_cell_map`. -/
def meshToSub (numCells : ℕ) (cells : List ℕ) : List ℕ × List ℕ :=
  let offsets := prefixSums 0 (markCells numCells cells)
  let data := (List.range cells.length).foldl
    (fun d c => d.set (offsets.getD (cells.getD c 0) 0) c) (List.replicate (offsets.getLastD 0) 0)
  (data, offsets)

/-- `_mesh_to_submesh_cell_map->links(c).front()` as used in `SubMesh.cpp:94-99,114-119,240-243`. -/
def subCell (m : List ℕ × List ℕ) (c : ℕ) : ℕ := (links m.1 m.2 c).headD 0

/-- Submesh facet of a (parent cell, local facet) pair, `SubMesh.cpp:94-101`, `114-121`. -/
def subFacet (m : List ℕ × List ℕ) (c2f : ℕ → List ℕ) (p : ℕ × ℕ) : ℕ :=
  (c2f (subCell m p.1)).getD p.2 0

/-- `SubMesh.cpp:80-130`: data and offsets of `_facets_to_cells`. -/
def facetMap (numFacets : ℕ) (m : List ℕ × List ℕ) (c2f : ℕ → List ℕ) (pairs : List (ℕ × ℕ)) :
    List ℕ × List ℕ :=
  let marked := pairs.foldl (fun k p => k.set (subFacet m c2f p) 2) (List.replicate numFacets 0)
  let offsets := prefixSums 0 marked
  let data := pairs.foldl (fun d p =>
    let o := offsets.getD (subFacet m c2f p) 0
    (d.set o (subCell m p.1)).set (o + 1) p.2) (List.replicate (offsets.getLastD 0) 0)
  (data, offsets)

/-- `SubMesh.cpp:225-248` `get_submesh_tuples`. -/
def submeshTuples (m : List ℕ × List ℕ) (facets : List (ℕ × ℕ)) : List (ℕ × ℕ) :=
  facets.map (fun p => (subCell m p.1, p.2))

/-- Dof maps of a pair of function spaces: `nd` dofs per cell, block size `bs`. -/
structure Spaces where
  numCells : ℕ
  nd : ℕ
  bs : ℕ
  sub : ℕ → ℕ → ℕ
  parent : ℕ → ℕ → ℕ
  parentCell : ℕ → ℕ

/-- `SubMesh.cpp:158-198` `copy_function`. -/
def copyFunction (S : Spaces) (u uSub : Arr ℕ) : Arr ℕ :=
  loop S.numCells (fun c => loop S.nd (fun i => loop S.bs (fun j (a : Arr ℕ) =>
    a.put (S.bs * S.sub c i + j) (u (S.bs * S.parent (S.parentCell c) i + j))))) uSub

/-- `utils.cpp:240-285` `update_geometry`: `dx` is filled cell by cell, then added. -/
def updateGeometry (numCells nd bs : ℕ) (dofs dofsX : ℕ → ℕ → ℕ) (u : Arr ℕ) (coords : Arr ℕ) :
    Arr ℕ :=
  let dx := loop numCells (fun c => loop nd (fun i => loop bs (fun j (a : Arr ℕ) =>
    a.put (3 * dofsX c i + j) (u (bs * dofs c i + j))))) (fun _ => 0)
  fun m => coords m + dx m

/-- `SubMesh.cpp:200-223` `SubMesh::update_geometry`; `xmap` is `_submesh_to_mesh_x_dof_map`,
`numX` the number of submesh nodes.  The new `u_sub` starts with zeros (a fresh `Function`). -/
def subUpdateGeometry (S : Spaces) (dofsX : ℕ → ℕ → ℕ) (numX : ℕ) (xmap : ℕ → ℕ) (parentX : Arr ℕ)
    (u : Arr ℕ) (subX : Arr ℕ) : Arr ℕ :=
  let subX := loop numX (fun i => loop 3 (fun k (a : Arr ℕ) =>
    a.put (3 * i + k) (parentX (3 * xmap i + k)))) subX
  updateGeometry S.numCells S.nd S.bs S.sub dofsX (copyFunction S u (fun _ => 0)) subX

end Verif.SubMesh
