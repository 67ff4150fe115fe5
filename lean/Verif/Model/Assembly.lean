import Verif.Lib.Arr
import Verif.Model.Entities

/-!
`cpp/Contact.cpp`: `assemble_vector`, `assemble_matrix`, `create_petsc_matrix`;
`cpp/MeshTie.cpp` and `contact_problem.py`: the loops over pairs and kernels around them.
-/

namespace Verif.Assembly

open Verif.Entities

noncomputable section

/-- What assembly reads for one contact pair.  `facets` are the (cell, local facet) pairs of the
surface (`_cell_facet_pairs.links`), `numLocal` is `_local_facets`, `map i` is `_facet_maps[pair]`
row `i`, `s2p f` is `facet_map->links(f).front()`, `pc` is `parent_cells`, `maxLinks` the largest entry of
`_max_links`, `dofs c` is `cell_dofs(c)`, `nd = cell_dofs(0).size()`. -/
structure Pair where
  facets : ℕ → ℕ × ℕ
  numLocal : ℕ
  map : ℕ → List ℤ
  s2p : ℕ → ℕ
  pc : ℕ → ℕ
  maxLinks : ℕ
  nd : ℕ
  bs : ℕ
  dofs : ℕ → ℕ → ℕ
  transforms : Bool

/-- A kernel (`kernel_fn`) as called here: the blocks, the coefficient row, the cell (standing for its
coordinates), the local facet, the number of linked cells and the quadrature points.  The constants
are fixed. -/
abbrev Kern := (ℕ → ℝ) → ℕ → ℕ → ℕ → List ℕ → Arr (ℕ × ℕ) → Arr (ℕ × ℕ)

/-- `std::invalid_argument`. -/
inductive Err where
  | invalidArgument
  deriving DecidableEq, Repr

/-- `Contact.cpp:1200-1211`, `1324-1337`: `q_indices` of facet `i`. -/
def qIndices (P : Pair) (i : ℕ) : List ℕ :=
  if P.maxLinks > 0 then
    let connected := P.map i
    (List.range connected.length).foldl (fun q j => if connected.getD j 0 ≥ 0 then q ++ [j] else q) []
  else []

/-- `Contact.cpp:1213-1215`, `1338-1340`: `linked_cells` of facet `i`.  Declared outside the loop, but
`compute_linked_cells` clears it, and it stays empty when `max_links` is zero. -/
def links (P : Pair) (i : ℕ) : List ℕ :=
  if P.maxLinks > 0 then linkedCells P.s2p P.pc (P.map i) else []

/-- `std::span(coeffs.data() + i / 2 * cstride, cstride)`: entries past the end of the span are not
part of the row (0 here). -/
def row (coeffs : ℕ → ℝ) (cstride i : ℕ) : ℕ → ℝ :=
  fun t => if t < cstride then coeffs (i * cstride + t) else 0

/-- `std::fill(be[block].begin(), be[block].end(), 0)` for a block of the given size. -/
def fillZero (size block : ℕ) (a : Arr (ℕ × ℕ)) : Arr (ℕ × ℕ) :=
  fun m => if m.1 = block ∧ m.2 < size then 0 else a m

/-- `Contact.cpp:1353-1356`, `1360-1363`: add block `l` of the element vectors to the dofs of a cell. -/
def scatterVec (P : Pair) (cell l : ℕ) (be : Arr (ℕ × ℕ)) (b : Arr ℕ) : Arr ℕ :=
  loop P.nd (fun j b => loop P.bs (fun k b =>
    Arr.acc b (P.bs * P.dofs cell j + k) (be (l, P.bs * j + k))) b) b

/-- `Contact.cpp:1310-1365`: one facet. The element vectors are re-used from facet to facet. -/
def vectorFacet (P : Pair) (kernel : Kern) (coeffs : ℕ → ℝ) (cstride i : ℕ)
    (s : Arr (ℕ × ℕ) × Arr ℕ) : Arr (ℕ × ℕ) × Arr ℕ :=
  let linked := links P i
  let be := fillZero (P.bs * P.nd) 0 s.1
  let be := loop linked.length (fun j be => fillZero (P.bs * P.nd) (j + 1) be) be
  let be := kernel (row coeffs cstride i) (P.facets i).1 (P.facets i).2 linked.length (qIndices P i) be
  let b := scatterVec P (P.facets i).1 0 be s.2
  let b := loop linked.length (fun l b => scatterVec P (linked.getD l 0) (l + 1) be b) b
  (be, b)

/-- `Contact.cpp:1249-1366` `Contact::assemble_vector`. -/
def assembleVector (P : Pair) (kernel : Kern) (coeffs : ℕ → ℝ) (cstride : ℕ) (b : Arr ℕ) :
    Except Err (Arr ℕ) :=
  if P.transforms then .error .invalidArgument
  else .ok (loop P.numLocal (vectorFacet P kernel coeffs cstride) (fun _ => 0, b)).2

/-- `dofmap->cell_dofs(c)`. -/
def cellDofs (P : Pair) (c : ℕ) : List ℕ := (List.range P.nd).map (P.dofs c)

/-- `Contact.cpp:1185-1246`: one facet of `assemble_matrix`; `matSet rows cols values` is the callback
`mat_set` acting on any state.  (Line 1238: linked cells are never negative.) -/
def matrixFacet {σ : Type} (matSet : List ℕ → List ℕ → (ℕ → ℝ) → σ → σ) (P : Pair) (kernel : Kern)
    (coeffs : ℕ → ℝ) (cstride i : ℕ) (s : Arr (ℕ × ℕ) × σ) : Arr (ℕ × ℕ) × σ :=
  let linked := links P i
  let size := P.bs * P.nd * (P.bs * P.nd)
  let dmapCell := cellDofs P (P.facets i).1
  let Ae := fillZero size 0 s.1
  let Ae := loop linked.length (fun j Ae =>
    fillZero size (3 * j + 3) (fillZero size (3 * j + 2) (fillZero size (3 * j + 1) Ae))) Ae
  let Ae := kernel (row coeffs cstride i) (P.facets i).1 (P.facets i).2 linked.length (qIndices P i) Ae
  let A := matSet dmapCell dmapCell (fun p => Ae (0, p)) s.2
  let A := loop linked.length (fun j A =>
    let dmapLinked := cellDofs P (linked.getD j 0)
    let A := matSet dmapCell dmapLinked (fun p => Ae (3 * j + 1, p)) A
    let A := matSet dmapLinked dmapCell (fun p => Ae (3 * j + 2, p)) A
    matSet dmapLinked dmapLinked (fun p => Ae (3 * j + 3, p)) A) A
  (Ae, A)

/-- `Contact.cpp:1131-1247` `Contact::assemble_matrix`. -/
def assembleMatrix {σ : Type} (matSet : List ℕ → List ℕ → (ℕ → ℝ) → σ → σ) (P : Pair) (kernel : Kern)
    (coeffs : ℕ → ℝ) (cstride : ℕ) (A : σ) : Except Err σ :=
  if P.transforms then .error .invalidArgument
  else .ok (loop P.numLocal (matrixFacet matSet P kernel coeffs cstride) (fun _ => 0, A)).2

/-- `wrappers.cpp:260`: the callback used from Python, `la::petsc::Matrix::set_block_fn(A, ADD_VALUES)`
(library): blocked addition of a row-major dense matrix. -/
def addValues (bs : ℕ) (rows cols : List ℕ) (vals : ℕ → ℝ) (A : Arr (ℕ × ℕ)) : Arr (ℕ × ℕ) :=
  loop rows.length (fun a A => loop bs (fun k A => loop cols.length (fun b A => loop bs (fun l A =>
    Arr.acc A (bs * rows.getD a 0 + k, bs * cols.getD b 0 + l)
      (vals ((bs * a + k) * (bs * cols.length) + (bs * b + l)))) A) A) A) A

/-- `Contact.cpp:270-279`: the dofs of the linked cells of facet `i`, before sorting. -/
def linkedDofsRaw (P : Pair) (i : ℕ) : List ℕ :=
  (P.map i).foldl (fun acc link =>
    if link < 0 then acc
    else acc ++ cellDofs P (P.pc (P.s2p link.toNat))) []

/-- `Contact.cpp:281-284`: sorted, without duplicates. -/
def linkedDofs (P : Pair) (i : ℕ) : List ℕ :=
  uniqueAdj (stableSort (fun d : ℕ => (d : ℤ)) (linkedDofsRaw P i))

/-- `SparsityPattern::insert(rows, cols)` (library), on the list of (row, column) blocks. -/
def insert (rows cols : List ℕ) (pattern : List (ℕ × ℕ)) : List (ℕ × ℕ) :=
  pattern ++ rows.flatMap (fun r => cols.map (fun c => (r, c)))

/-- `Contact.cpp:240-294` `create_petsc_matrix`: the sparsity pattern; `form` is the pattern of the
form (246-247).  Communication (`finalize`) is not modelled. -/
def createPattern (pairs : List Pair) (form : List (ℕ × ℕ)) : List (ℕ × ℕ) :=
  forEach pairs (fun P pattern => loop P.numLocal (fun i pattern =>
    let cd := cellDofs P (P.facets i).1
    insert (linkedDofs P i) cd (insert cd (linkedDofs P i) pattern)) pattern) form

/-- `contact_problem.py:403-423` `ContactProblem.assemble_vector`: all pairs, all kernels, each with
the coefficients of the pair and their number of columns (`wrappers.cpp:245-296`). -/
def problemVector (pairs : List Pair) (kernels : List Kern) (coeffs : ℕ → ℕ → ℝ) (cstride : ℕ → ℕ)
    (b : Arr ℕ) : Except Err (Arr ℕ) :=
  (List.range pairs.length).foldlM (fun b i =>
    kernels.foldlM (fun b kernel =>
      match pairs[i]? with
      | some P => assembleVector P kernel (coeffs i) (cstride i) b
      | none => .ok b) b) b

/-- `contact_problem.py:426-448` `ContactProblem.assemble_matrix`. -/
def problemMatrix (pairs : List Pair) (kernels : List Kern) (coeffs : ℕ → ℕ → ℝ) (cstride : ℕ → ℕ)
    (A : Arr (ℕ × ℕ)) : Except Err (Arr (ℕ × ℕ)) :=
  (List.range pairs.length).foldlM (fun A i =>
    kernels.foldlM (fun A kernel =>
      match pairs[i]? with
      | some P => assembleMatrix (addValues P.bs) P kernel (coeffs i) (cstride i) A
      | none => .ok A) A) A

end

end Verif.Assembly
