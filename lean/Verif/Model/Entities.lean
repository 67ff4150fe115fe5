import Verif.Lib.Sort

/-!
Index bookkeeping: `cpp/utils.cpp` (`sort_cells`, `compute_active_entities`,
`facet_indices_from_pair`), `python/dolfinx_contact/wrappers.cpp` (`compute_active_entities`),
`cpp/Contact.cpp` (`create_cell_facet_pairs`, `compute_linked_cells`, constructor).
`int32` values are `ℤ`/`ℕ` (no overflow).
-/

namespace Verif.Entities

/-- What the C++ code throws; the text of the message is not modelled. -/
inductive Err where
  | runtimeError
  | invalidArgument
  deriving DecidableEq, Repr

/-- Result of `sort_cells`: unique cells, offsets, and the permutation buffer afterwards. -/
structure SortedCells where
  unique : List ℤ
  offsets : List ℕ
  perm : List ℕ
  deriving DecidableEq, Repr

/-- `cpp/utils.cpp:226-230`: the offset loop (lines 225-229) and `offsets[index + 1] = num_cells`
(line 231).  `offsets` has length `num_cells + 1` and starts with zeros. -/
def offsetLoop (sorted : List ℤ) : List ℕ :=
  let n := sorted.length
  let st := (List.range (n - 1)).foldl (fun (st : ℕ × List ℕ) i =>
    if sorted.getD i 0 ≠ sorted.getD (i + 1) 0 then (st.1 + 1, st.2.set (st.1 + 1) (i + 1)) else st)
    (0, List.replicate (n + 1) 0)
  st.2.set (st.1 + 1) n

/-- `cpp/utils.cpp:188-237` `sort_cells`.  `perm` is the caller's buffer (only overwritten in the
main branch).  `min_element < 0` is "some element is negative". -/
def sortCells (cells : List ℤ) (perm : List ℕ) : Except Err SortedCells :=
  if cells.length = 0 then .ok ⟨[], [0, 0], perm⟩
  else
    let tmp := uniqueAdj cells
    if tmp = [-1] then .ok ⟨[-1], [0, cells.length], perm⟩
    else if tmp.any (· < 0) then .error .runtimeError
    else
      let perm := stableSort (fun i => cells.getD i 0) (List.range cells.length)
      let sorted := perm.map (fun i => cells.getD i 0)
      let offsets := offsetLoop sorted
      let unique := uniqueAdj sorted
      .ok ⟨unique, offsets.take (unique.length + 1), perm⟩

/-- `dolfinx::fem::IntegralType`. -/
inductive Integral where
  | cell | exteriorFacet | interiorFacet | vertex
  deriving DecidableEq, Repr

/-- Mesh connectivity (library data): the cell of an exterior facet and the facets of a cell. -/
structure Conn where
  f2c : ℕ → ℕ
  c2f : ℕ → List ℕ

/-- `cpp/utils.cpp:707-716`: (cell, local facet index) of a facet; `std::find` + `distance`. -/
def facetPair (cn : Conn) (facet : ℕ) : ℕ × ℕ :=
  let cell := cn.f2c facet
  (cell, (cn.c2f cell).idxOf facet)

/-- Pairs stored flat: cell, local facet, cell, local facet, ... -/
def flatten : List (ℕ × ℕ) → List ℕ
  | [] => []
  | (c, f) :: l => c :: f :: flatten l

/-- `cpp/utils.cpp:680-739` `compute_active_entities`.  Simplification: the index sort
(`perm`, `cells[p]`, `facets[p]`) is expressed as a stable sort of the pairs by their cell. -/
def activeEntities (cn : Conn) (entities : List ℕ) : Integral → Except Err (List ℕ)
  | .cell => .ok (stableSort (fun c : ℕ => (c : ℤ)) entities)
  | .exteriorFacet =>
      let pairs := entities.map (facetPair cn)
      .ok (flatten (stableSort (fun p : ℕ × ℕ => (p.1 : ℤ)) pairs))
  | _ => .error .invalidArgument

/-- The backward scan `for (i = size - 2; i >= 0; i -= 2) if (a[i] < n) { r = i/2 + 1; break; }`
(`wrappers.cpp:523-532`, `Contact.cpp:145-153`); `k` pairs are still to be scanned. -/
def scanBack (a : List ℕ) (n : ℕ) : ℕ → ℕ
  | 0 => 0
  | k + 1 => if a.getD (2 * k) 0 < n then (2 * k) / 2 + 1 else scanBack a n k

/-- `std::upper_bound` on a sorted list: position of the first element `> v`. -/
def upperBound (a : List ℕ) (v : ℕ) : ℕ := (a.takeWhile (fun x => !decide (v < x))).length

/-- `wrappers.cpp:496-543` Python `compute_active_entities`: entities and `num_local`. -/
def pyActiveEntities (cn : Conn) (sizeLocal : ℕ) (entities : List ℕ) (t : Integral) :
    Except Err (List ℕ × ℕ) :=
  match activeEntities cn entities t with
  | .error e => .error e
  | .ok a =>
    match t with
    | .cell => .ok (a, upperBound a sizeLocal)
    | .exteriorFacet => .ok (a, scanBack a sizeLocal (a.length / 2))
    | _ => .error .invalidArgument

/-- `cpp/utils.cpp:805-830` `facet_indices_from_pair` (connectivity present). -/
def facetIndicesFromPair (cn : Conn) : List ℕ → List ℕ
  | c :: f :: l => (cn.c2f c).getD f 0 :: facetIndicesFromPair cn l
  | _ => []

/-- `cpp/Contact.cpp:119-155`, loop 136-154: `_local_facets[s]` for one surface. -/
def localFacets (facets : List ℕ) (numCells : ℕ) : ℕ := scanBack facets numCells (facets.length / 2)

/-- `cpp/Contact.cpp:16-55` `create_cell_facet_pairs`: flat pairs and offsets.
`find s tag` is `markers[s]->find(tag)`; `links s` is `surfaces.links(s)`; `nMarkers` is
`markers.size()`. -/
def createCellFacetPairs (cn : Conn) (find : ℕ → ℤ → List ℕ) (links : ℕ → List ℤ)
    (nMarkers : ℕ) : Except Err (List ℕ × List ℕ) :=
  (List.range nMarkers).foldlM (fun st s =>
    (links s).foldlM (fun (st : List ℕ × List ℕ) tag => do
      let pairs ← activeEntities cn (find s tag) .exteriorFacet
      pure (st.1 ++ pairs, st.2 ++ [st.2.getLastD 0 + pairs.length])) st) ([], [0])

/-- `cpp/Contact.cpp:157-169`: the marker constructor (delegates first, then compares sizes). -/
def contactFromMarkers (cn : Conn) (find : ℕ → ℤ → List ℕ) (links : ℕ → List ℤ)
    (nMarkers numNodes : ℕ) : Except Err (List ℕ × List ℕ) := do
  let r ← createCellFacetPairs cn find links nMarkers
  if nMarkers ≠ numNodes then throw .runtimeError
  pure r

/-- `cpp/Contact.cpp:89-114` `compute_linked_cells`.  `subToParent f` is the first entry of
`sub_to_parent.links(f)`. -/
def linkedCells (subToParent : ℕ → ℕ) (parentCells : ℕ → ℕ) (submeshFacets : List ℤ) : List ℕ :=
  let raw := submeshFacets.foldl (fun acc facet =>
    if facet ≥ 0 then acc ++ [parentCells (subToParent facet.toNat)] else acc) []
  uniqueAdj (stableSort (fun c : ℕ => (c : ℤ)) raw)

end Verif.Entities
