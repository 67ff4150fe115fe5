import Verif.Model.ContactMesh

/-!
`python/dolfinx_contact/parallel_mesh_ghosting.py` `create_contact_mesh_old`: the earlier version of `create_contact_mesh`
in Python, for all processes together.  An exception on one process is `none`: the other processes then wait for it in the
next collective call.
-/

namespace Verif.ContactMesh

open Verif.Ghosting Verif.Search

variable {K : Type} [Field K] [LinearOrder K] [IsStrictOrderedRing K]

/-- `np.concatenate` raises a `ValueError` for an empty list of arrays. -/
def concatenate {α : Type} (ls : List (List α)) : Option (List α) := if ls.isEmpty then none else some ls.flatten

/-- `xs.reshape(-1, dim)` of a flat array, as its rows: a `ValueError` unless the size is a multiple of `dim`. -/
def reshape (dim : ℕ) (xs : List ℤ) : Option (List (List ℤ)) :=
  if xs.length % dim = 0 then some ((List.range (xs.length / dim)).map (row dim xs)) else none

/-- `parallel_mesh_ghosting.py:72-77`: sorted global vertices of the marked entities. -/
def sortedVertices (T : Tags) : List (List ℤ) :=
  T.idx.map (fun e => stableSort (fun z : ℤ => z) ((T.vertices e).map T.l2g))

/-- `parallel_mesh_ghosting.py:83-91`: vertices and values of the marked facets of all processes. -/
def allFacets (dim : ℕ) (procs : List Tags) : Option (List (List ℤ) × List ℤ) := do
  let sent := procs.map (fun T => if 0 < (sortedVertices T).length then (sortedVertices T).flatten else [])
  let flat ← concatenate (sent.filter (fun f => 0 < f.length))
  let rows ← reshape dim flat
  let values ← concatenate ((procs.map Tags.val).filter (fun v => 0 < v.length))
  if values.length = rows.length then some (rows, values) else none

/-- `parallel_mesh_ghosting.py:93-96`: vertices and values of the marked cells of all processes. -/
def allCells (dim : ℕ) (procs : List Tags) : Option (List (List ℤ) × List ℤ) := do
  let sent ← procs.mapM (fun T => concatenate (sortedVertices T))
  let flat ← concatenate sent
  let rows ← reshape dim flat
  let values ← concatenate (procs.map Tags.val)
  some (rows, values)

/-- Conversion of an array of 64-bit integers with `dtype=np.int32`: the lower 32 bits. -/
def toInt32 (z : ℤ) : ℤ := (z + 2 ^ 31) % 2 ^ 32 - 2 ^ 31

/-- `parallel_mesh_ghosting.py:131-146` (facets), `168-170` (cells): `np.vectorize` raises a `ValueError` for an empty
array. -/
def remapped (dim : ℕ) (N : NewMesh) : Option (List ℤ) := do
  if N.conn.isEmpty then none
  let rows ← reshape dim (N.conn.map (fun v => toInt32 (N.inputGlobal (N.vertToGeom v))))
  some (rows.map (stableSort (fun z : ℤ => z))).flatten

/-- `parallel_mesh_ghosting.py:152-165` (facets), `176-183` (cells), for the gathered data `all`: `out` is a possible list of
(index, value) pairs of the new `MeshTags`. -/
def OldTags (dim : ℕ) (all : Option (List (List ℤ) × List ℤ)) (N : NewMesh) (out : List (ℕ × ℤ)) : Prop :=
  ∃ a rows, all = some a ∧ remapped dim N = some rows ∧ LexMatch dim rows a.1.flatten a.2 out

/-- `parallel_mesh_ghosting.py:110-114`: `topo`. -/
def oldTopo (P : Proc K) (nv : ℕ) : Option (List (List ℤ)) := (reshape nv (P.topo.map P.l2g)).map (List.take P.ncells)

/-- `parallel_mesh_ghosting.py:117-119`: `mesh.geometry.x[:num_vertices, :gdim]`, `nnodes` rows of three. -/
def oldX (P : Proc K) (nnodes gdim : ℕ) : List (List K) :=
  (((List.range nnodes).map (fun i => (List.range 3).map (fun j => P.xg (i * 3 + j)))).take P.nverts).map (List.take gdim)

/-- `parallel_mesh_ghosting.py:51-54`: `marker_subset`. -/
def oldSubset (tags : List ℤ) (P : Proc K) : List ℕ :=
  let i := ((P.fIdx.zip P.fVal).zipIdx.filter (fun e => decide (e.1.2 ∈ tags))).map Prod.snd
  i.map (fun i => P.fIdx.getD i 0)

/-- `parallel_mesh_ghosting.py:64-67`: the dictionary `cell_to_dests`. -/
def oldCellToDests (f2c : ℕ → List ℕ) (subset : List ℕ) (dests : ℕ → List ℕ) : ℕ → Option (List ℕ) :=
  ((subset.map (fun f => (f2c f).headD 0)).zipIdx).foldl (fun m e => Function.update m e.1 (some (dests e.2))) (fun _ => none)

/-- `parallel_mesh_ghosting.py:98-107`: the partitioner. -/
def oldPartitioner (rank ncells : ℕ) (m : ℕ → Option (List ℕ)) : List ℕ × List ℕ :=
  (List.range ncells).foldl (fun st c =>
    let dests := st.1 ++ [rank]
    let dests := if (m c).isSome then dests ++ (m c).getD [] else dests
    (dests, st.2 ++ [dests.length])) ([], [0])

end Verif.ContactMesh
