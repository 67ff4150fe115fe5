import Verif.Model.Ghosting
import Mathlib.Data.Real.Basic

/-!
`cpp/parallel_mesh_ghosting.cpp:286-418` `compute_ghost_cell_destinations` with its array accesses: an access
outside of an array (undefined behaviour in the program) gives `none`.  `Model/Ghosting.lean` has the values.
-/

namespace Verif.Ghosting

noncomputable section

/-- `parallel_mesh_ghosting.cpp:302-325`: midpoints of the facets, three coordinates each. `x` are the
coordinates of the mesh (three per node), `geom` is `entities_to_geometry(mesh, tdim - 1, marker_subset)`. -/
def midpoints (x : List ℝ) (geom : List ℕ) (nf : ℕ) : Option (List ℝ) :=
  if nf > 0 then
    let nv := geom.length / nf
    (List.range nf).foldlM (fun out i => do
      let m ← (List.range nv).foldlM (fun (m : ℝ × ℝ × ℝ) j => do
        let g ← geom[i * nv + j]?
        let x0 ← x[g * 3 + 0]?
        let x1 ← x[g * 3 + 1]?
        let x2 ← x[g * 3 + 2]?
        some (m.1 + x0 / nv, m.2.1 + x1 / nv, m.2.2 + x2 / nv)) (0, 0, 0)
      some (out ++ [m.1, m.2.1, m.2.2])) []
  else some []

/-- `parallel_mesh_ghosting.cpp:364-390`: `x_near.links(i)` and `neighbor_p[j + 1] = ...`, see `facetLoop`. -/
def facetLoopChecked (offsets : List ℕ) (near : List (List ℕ)) (p nf : ℕ) (st : List ℕ × ℕ) : Option (List ℕ × ℕ) :=
  (List.range nf).foldlM (fun st j => do
    let ns ← near[st.2]?
    let nb := st.1 ++ facetProcs offsets p ns
    if j + 1 < nb.length then some (nb.set (j + 1) (nb.length - (nf + 1)), st.2 + 1) else none) st

/-- `parallel_mesh_ghosting.cpp:344-394`: `all_counts[p]`, see `rootLoop`. -/
def rootLoopChecked (counts : List ℕ) (near : List (List ℕ)) : Option Root :=
  let offsets := prefixSums 0 counts
  (List.range counts.length).foldlM (fun st p => do
    let nf ← counts[p]?
    let r ← facetLoopChecked offsets near p nf (resize st.neighborP (nf + 1), st.i)
    let procs := st.nbrProcs ++ r.1
    some ⟨procs, st.nbrOffsets ++ [procs.length], r.1, r.2⟩) ⟨[], [0], [], 0⟩

/-- `parallel_mesh_ghosting.cpp:396-399`: `dsizes`, computed by every process. -/
def sendSizes (size : ℕ) (nbrOffsets : List ℕ) : Option (List ℤ) :=
  (List.range size).mapM (fun i => do
    let a ← nbrOffsets[i + 1]?
    let b ← nbrOffsets[i]?
    some (Int.ofNat a - Int.ofNat b))

/-- `parallel_mesh_ghosting.cpp:408-415`: `doffsets` and `cell_dests`; the iterator `begin + num_facets + 1` must
not be past the end. -/
def unpackDests (recv : List ℕ) (nf : ℕ) : Option (List ℕ × List ℕ) :=
  if nf + 1 ≤ recv.length then some (recv.take (nf + 1), recv.drop (nf + 1)) else none

/-- `parallel_mesh_ghosting.cpp:338-417` on process `rank`: `nbr_offsets` is filled on process zero only, which
sends to every process its part of `nbr_procs` (`MPI_Scatter`, `MPI_Scatterv` read the arrays of process zero
only). -/
def ghostDestinations (rank : ℕ) (counts : List ℕ) (near : List (List ℕ)) : Option (List ℕ × List ℕ) := do
  let root ← rootLoopChecked counts near
  let nbrOffsets := if rank = 0 then root.nbrOffsets else [0]
  let _ ← sendSizes counts.length nbrOffsets
  let nf ← counts[rank]?
  unpackDests (links root.nbrProcs root.nbrOffsets rank) nf

end

end Verif.Ghosting
