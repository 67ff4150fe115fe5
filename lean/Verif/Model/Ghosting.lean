import Verif.Model.Entities

/-!
`cpp/parallel_mesh_ghosting.cpp`: `copy_to_all`, `cell_to_dests` and the partitioner of
`create_contact_mesh`, `compute_ghost_cell_destinations`, `lex_match`; `cpp/Contact.cpp`
`max_links`.  MPI collectives are modelled by their contracts on the list of all ranks' buffers.
Midpoint computation and `create_mesh` are not modelled.
-/

namespace Verif.Ghosting

open Verif.Entities

/-! ### `copy_to_all` -/

/-- `MPI_Allgatherv` on one receive buffer: rank `i` writes its send buffer at `offsets[i]`. -/
def writeAt {α : Type} (buf : List α) (off : ℕ) (data : List α) : List α :=
  buf.take off ++ data ++ buf.drop (off + data.length)

/-- `MPI_Allgatherv(send, ..., recv, counts, offsets)`: as many elements as announced in `counts`
are taken from every rank. -/
def allgatherv {α : Type} (init : List α) (send : List (List α)) (counts offsets : List ℕ) :
    List α :=
  (List.range send.length).foldl (fun buf i =>
    writeAt buf (offsets.getD i 0) ((send.getD i []).take (counts.getD i 0))) init

/-- `recv_offset[i + 1] = recv_offset[i] + recv_count[i]` (`parallel_mesh_ghosting.cpp:26-27`). -/
def prefixSums (start : ℕ) : List ℕ → List ℕ
  | [] => [start]
  | c :: l => start :: prefixSums (start + c) l

/-- `parallel_mesh_ghosting.cpp:18-45` `copy_to_all`: what every rank holds afterwards.
`indices`, `values` are the send buffers of all ranks. -/
def copyToAll (indices : List (List ℤ)) (values : List (List ℤ)) (nv : ℕ) : List ℤ × List ℤ :=
  let count := indices.map List.length
  let offset := prefixSums 0 count
  let allIndices := allgatherv (List.replicate (offset.getLastD 0) 0) indices count offset
  let count := count.map (· / nv)
  let offset := offset.map (· / nv)
  let allValues := allgatherv (List.replicate (offset.getLastD 0) 0) values count offset
  (allIndices, allValues)

/-! ### `create_contact_mesh`: markers, destinations per cell, partitioner -/

/-- `parallel_mesh_ghosting.cpp:75-92`: facets whose marker is one of `tags`. -/
def markerSubset (indices : List ℕ) (values : List ℤ) (tags : List ℤ) : List ℕ :=
  (List.range indices.length).filterMap (fun i =>
    if tags.any (fun k => k = values.getD i 0) then some (indices.getD i 0) else none)

/-- `parallel_mesh_ghosting.cpp:100-110`: `cell_to_dests[c] = dests of facet i`, in facet order. -/
def cellToDests (f2c : ℕ → ℕ) (subset : List ℕ) (dests : ℕ → List ℕ) : ℕ → Option (List ℕ) :=
  (List.range subset.length).foldl (fun m i =>
    let c := f2c (subset.getD i 0)
    Function.update m c (some (dests i))) (fun _ => none)

/-- `parallel_mesh_ghosting.cpp:173-194`: the partitioner, as data and offsets. -/
def partitioner (rank ncells : ℕ) (m : ℕ → Option (List ℕ)) : List ℕ × List ℕ :=
  (List.range ncells).foldl (fun st c =>
    let d := st.1 ++ [rank]
    let d := match m c with
      | some l => d ++ l
      | none => d
    (d, st.2 ++ [d.length])) ([], [0])

/-- `AdjacencyList::links(i)`. -/
def links {α : Type} (data : List α) (offsets : List ℕ) (i : ℕ) : List α :=
  (data.drop (offsets.getD i 0)).take (offsets.getD (i + 1) 0 - offsets.getD i 0)

/-! ### `compute_ghost_cell_destinations` -/

/-- `parallel_mesh_ghosting.cpp:371-375`: process owning global facet `n`. -/
def owner (offsets : List ℕ) (n : ℕ) : ℕ := upperBound offsets n - 1

/-- `parallel_mesh_ghosting.cpp:368-387`: `pr` for one facet of process `p` with neighbours `ns`. -/
def facetProcs (offsets : List ℕ) (p : ℕ) (ns : List ℕ) : List ℕ :=
  ns.foldl (fun pr n =>
    let q := owner offsets n
    if q ≠ p then
      if q ∈ pr then pr else stableSort (fun x : ℕ => (x : ℤ)) (pr ++ [q])
    else pr) []

/-- `resize(n, 0)`. -/
def resize (l : List ℕ) (n : ℕ) : List ℕ := l.take n ++ List.replicate (n - l.length) 0

/-- `parallel_mesh_ghosting.cpp:366-390`: facets of process `p`, `i` being the running global
facet index; the buffer `neighbor_p` starts with its first `num_facets_p + 1` entries. -/
def facetLoop (offsets : List ℕ) (near : ℕ → List ℕ) (p nf : ℕ) (st : List ℕ × ℕ) : List ℕ × ℕ :=
  (List.range nf).foldl (fun st j =>
    let nb := st.1 ++ facetProcs offsets p (near st.2)
    (nb.set (j + 1) (nb.length - (nf + 1)), st.2 + 1)) st

/-- State of the root process' loop over processes. -/
structure Root where
  nbrProcs : List ℕ
  nbrOffsets : List ℕ
  neighborP : List ℕ
  i : ℕ

/-- `parallel_mesh_ghosting.cpp:344-394`: the loop on process zero; `counts[p]` is the number of
facets of process `p`, `near i` is `x_near.links(i)`.  `neighbor_p` is not cleared between
processes, only resized. -/
def rootLoop (counts : List ℕ) (near : ℕ → List ℕ) : Root :=
  let offsets := prefixSums 0 counts
  (List.range counts.length).foldl (fun st p =>
    let nf := counts.getD p 0
    let r := facetLoop offsets near p nf (resize st.neighborP (nf + 1), st.i)
    let procs := st.nbrProcs ++ r.1
    ⟨procs, st.nbrOffsets ++ [procs.length], r.1, r.2⟩) ⟨[], [0], [], 0⟩

/-- `parallel_mesh_ghosting.cpp:396-417`: what process `p` receives and unpacks: destinations of
its facet `j`. Only the data of process zero is read by the scatter; the reads of `nbr_offsets`
past its end on the other processes (line 399) are not modelled. -/
def cellDests (counts : List ℕ) (near : ℕ → List ℕ) (p j : ℕ) : List ℕ :=
  let r := rootLoop counts near
  let recv := links r.nbrProcs r.nbrOffsets p
  let nf := counts.getD p 0
  let doffsets := recv.take (nf + 1)
  let dests := recv.drop (nf + 1)
  links dests doffsets j

/-! ### `lex_match` -/

/-- `std::lexicographical_compare`. -/
def lexLess : List ℤ → List ℤ → Bool
  | [], [] => false
  | [], _ :: _ => true
  | _ :: _, [] => false
  | a :: l, b :: m => if a < b then true else if b < a then false else lexLess l m

/-- Tuple number `a` of a flat array of tuples of length `dim`. -/
def row (dim : ℕ) (xs : List ℤ) (a : ℕ) : List ℤ := (xs.drop (dim * a)).take dim

/-- Contract of `std::sort` on the indices with the tuple comparison (lines 436-460): a
permutation of `0, ..., n-1` in which no later tuple is smaller. -/
def IsArgsort (dim : ℕ) (xs : List ℤ) (p : List ℕ) : Prop :=
  p.Perm (List.range (xs.length / dim)) ∧
    p.Pairwise (fun a b => lexLess (row dim xs b) (row dim xs a) = false)

/-- `parallel_mesh_ghosting.cpp:463-493`: the merge loop; the lists are what is left of `p_in` and
`p_local`. -/
def lexMerge (dim : ℕ) (loc inn : List ℤ) (vals : List ℤ) : List ℕ → List ℕ → List (ℕ × ℤ)
  | i :: is, j :: js =>
    if row dim inn i = row dim loc j then (j, vals.getD i 0) :: lexMerge dim loc inn vals is js
    else if lexLess (row dim inn i) (row dim loc j) then lexMerge dim loc inn vals is (j :: js)
    else lexMerge dim loc inn vals (i :: is) js
  | _, _ => []
  termination_by l m => l.length + m.length

/-- Comparison of `std::pair<int, int>`. -/
def pairLe (a b : ℕ × ℤ) : Prop := a.1 < b.1 ∨ (a.1 = b.1 ∧ a.2 ≤ b.2)

/-- `parallel_mesh_ghosting.cpp:420-510` `lex_match`, as a relation because `std::sort` is
specified by its contract: `out` is a possible list of (index, value) results. -/
def LexMatch (dim : ℕ) (loc inn vals : List ℤ) (out : List (ℕ × ℤ)) : Prop :=
  ∃ pLocal pIn sorted, IsArgsort dim loc pLocal ∧ IsArgsort dim inn pIn ∧
    sorted.Perm (lexMerge dim loc inn vals pIn pLocal) ∧ sorted.Pairwise pairLe ∧
    out = uniqueAdj sorted

/-! ### `max_links` -/

/-- `cpp/Contact.cpp:471-506` `Contact::max_links`.  `numActive` is the number of facets in
`_cell_facet_pairs.links(...)`; `map` lists the links of the facets of the contact map; reading
past its end is an error of the model (undefined behaviour in the program). `cellOf f` is
`facet_map->links(f).front()`. -/
def maxLinks (numActive : ℕ) (map : List (List ℤ)) (cellOf : ℕ → ℕ) : Option ℕ :=
  (List.range numActive).foldlM (fun m i => do
    let l ← map[i]?
    let cells := l.filterMap (fun f => if f ≥ 0 then some (cellOf f.toNat) else none)
    let cells := uniqueAdj (stableSort (fun c : ℕ => (c : ℤ)) cells)
    some (max m cells.length)) 0

end Verif.Ghosting
