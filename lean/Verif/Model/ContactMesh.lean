import Verif.Model.Ghosting
import Verif.Model.Search

/-!
`cpp/parallel_mesh_ghosting.cpp` `create_contact_mesh` as a whole: transfer of markers, input of
`create_mesh` and destinations of the cells, for all processes together.  The pieces (`copy_to_all`,
`lex_match`, the loop on the root process, the partitioner) are in `Model/Ghosting.lean`, the search
for near points in `Model/Search.lean`.  `create_mesh` is library code: its input is modelled, and the
vertices of its result are parameters.
-/

namespace Verif.ContactMesh

open Verif.Ghosting Verif.Search

variable {K : Type} [Field K] [LinearOrder K] [IsStrictOrderedRing K]

/-- Marked entities on one process: `indices()` and `values()` of the `MeshTags`, the local vertices of
an entity and the vertex index map `local_to_global`. -/
structure Tags where
  idx : List ℕ
  val : List ℤ
  vertices : ℕ → List ℕ
  l2g : ℕ → ℤ

/-- `parallel_mesh_ghosting.cpp:123-127`, `138-142`, `235-239`, `265-269`: every block of `dim` entries is
sorted in place. -/
def sortRows (dim : ℕ) (xs : List ℤ) : List ℤ :=
  (List.range (xs.length / dim)).foldl (fun xs i =>
    writeAt xs (dim * i) (stableSort (fun z : ℤ => z) (row dim xs i))) xs

/-- `parallel_mesh_ghosting.cpp:114-127` (facets), `130-142` (cells): sorted global vertices of the marked
entities. -/
def entityRows (dim : ℕ) (T : Tags) : List ℤ :=
  sortRows dim ((T.idx.foldl (fun acc e => acc ++ T.vertices e) []).map T.l2g)

/-- The mesh returned by `create_mesh` on one process: the flat array of the vertices of its entities
(`connectivity(d, 0)->array()`), `entities_to_geometry` of its vertices and `input_global_indices()` of
its geometry nodes. -/
structure NewMesh where
  conn : List ℕ
  vertToGeom : ℕ → ℕ
  inputGlobal : ℕ → ℤ

/-- `parallel_mesh_ghosting.cpp:213-239` (facets), `252-269` (cells): sorted input indices of the vertices
of the new entities. -/
def newRows (dim : ℕ) (N : NewMesh) : List ℤ :=
  sortRows dim (N.conn.map (fun v => N.inputGlobal (N.vertToGeom v)))

/-- `parallel_mesh_ghosting.cpp:144-151` and `244-248` (facets) / `274-278` (cells): `out` is a possible
list of (index, value) pairs of the new `MeshTags` on the process with new mesh `N`. -/
def NewTags (dim : ℕ) (procs : List Tags) (N : NewMesh) (out : List (ℕ × ℤ)) : Prop :=
  let all := copyToAll (procs.map (entityRows dim)) (procs.map Tags.val) dim
  LexMatch dim (newRows dim N) all.1 all.2 out

/-! ### Input of `create_mesh` -/

/-- One process of the input mesh: marked facets, facet-cell connectivity, numbers of owned cells and
vertices, vertices of the cells as a flat array, vertex `local_to_global`, node coordinates (three per
node), and `entities_to_geometry` of a facet. -/
structure Proc (K : Type) where
  fIdx : List ℕ
  fVal : List ℤ
  f2c : ℕ → List ℕ
  ncells : ℕ
  nverts : ℕ
  topo : List ℕ
  l2g : ℕ → ℤ
  xg : ℕ → K
  facetNodes : ℕ → List ℕ

/-- `parallel_mesh_ghosting.cpp:153-158`: `topo_global`. -/
def topoGlobal (P : Proc K) (nv : ℕ) : List ℤ :=
  ((P.topo.take (P.ncells * nv)) ++ List.replicate (P.ncells * nv - P.topo.length) 0).map P.l2g

/-- `parallel_mesh_ghosting.cpp:160-171`: coordinates passed to `create_mesh`. -/
def inputX (P : Proc K) (gdim : ℕ) : List K :=
  (List.range P.nverts).foldl (fun x i =>
    (List.range gdim).foldl (fun x j => x ++ [P.xg (i * 3 + j)]) x) []

/-- Contract of `create_mesh`: component `j` of the coordinates of the node with input index `g` is taken
from row `g` of the rows of all processes. -/
def newCoord (procs : List (Proc K)) (gdim g j : ℕ) : K :=
  ((procs.map (fun P => inputX P gdim)).flatten).getD (g * gdim + j) 0

/-! ### Destinations -/

/-- The marked facets with one of the tags. -/
def subset (tags : List ℤ) (P : Proc K) : List ℕ := markerSubset P.fIdx P.fVal tags

/-- `parallel_mesh_ghosting.cpp:301-323`: midpoints of the given facets, three components each. -/
def midpoints (P : Proc K) (facets : List ℕ) : List K :=
  let facetToGeom := facets.foldl (fun acc f => acc ++ P.facetNodes f) []
  let numFacets := facets.length
  if 0 < numFacets then
    let nv := facetToGeom.length / numFacets
    (List.range numFacets).foldl (fun mid i =>
      mid ++ (List.range 3).map (fun k => (List.range nv).foldl (fun m j =>
        m + P.xg (facetToGeom.getD (i * nv + j) 0 * 3 + k) / (nv : K)) 0)) []
  else []

/-- `parallel_mesh_ghosting.cpp:325-338`: `x_all_flat` on process zero. -/
def gathered (tags : List ℤ) (procs : List (Proc K)) : List K :=
  let send := procs.map (fun P => midpoints P (subset tags P))
  let counts := send.map List.length
  let offsets := prefixSums 0 counts
  allgatherv (List.replicate (offsets.getLastD 0) 0) send counts offsets

/-- The points of `x_all_flat`. -/
def points (tags : List ℤ) (procs : List (Proc K)) : Points K :=
  fun i k => (gathered tags procs).getD (3 * i + k.val) 0

/-- Numbers of facets of the processes (`all_counts[p] / 3`, line 361). -/
def counts (tags : List ℤ) (procs : List (Proc K)) : List ℕ :=
  (procs.map (fun P => (midpoints P (subset tags P)).length)).map (· / 3)

/-- `parallel_mesh_ghosting.cpp:93-110` and `173-193`: destinations of cell `c` of process `p`.  `xFwd` is
the `std::sort`ed index list of `point_cloud_pairs`. -/
def destinations (tags : List ℤ) (R : K) (procs : List (Proc K)) (xFwd : List ℕ) (p : ℕ) (P : Proc K)
    (c : ℕ) : List ℕ :=
  let near := fun i => (pointCloudPairs (points tags procs) R xFwd).getD i []
  let m := cellToDests (fun f => (P.f2c f).headD 0) (subset tags P)
    (fun j => cellDests (counts tags procs) near p j)
  let part := partitioner p P.ncells m
  links part.1 part.2 c

end Verif.ContactMesh
