import Verif.Model.SubMesh
import Mathlib.Analysis.Real.Sqrt

/-!
`cpp/Contact.cpp`: `pack_gap`, `pack_gap_plane`, `pack_test_functions`,
`pack_grad_test_functions`, `crop_invalid_points`, `pack_u_contact`, `pack_grad_u_contact`;
`cpp/utils.cpp` `compute_physical_points`.

Tabulated basis functions, dofmaps and connectivities are library data and therefore parameters.
Every facet has `nq` quadrature points (asserted in the code).
-/

namespace Verif.Packing

open Verif.Entities Verif.Ghosting Verif.SubMesh Finset

/-- The contact map of one pair together with the sizes the packers use. -/
structure PairData where
  /-- `_local_facets[quadrature_mt]` -/
  numFacets : ℕ
  /-- quadrature points per facet -/
  nq : ℕ
  /-- basis functions per cell (`b_shape[2]`, `ndofs`) -/
  nd : ℕ
  /-- block size -/
  bs : ℕ
  /-- largest entry of `_max_links` -/
  ml : ℕ
  gdim : ℕ
  /-- `_facet_maps[pair]->array()`: submesh facet of every quadrature point, negative if none -/
  facets : ℕ → ℤ
  /-- `facet_map->links(f).front()`: submesh cell of a submesh facet -/
  subCell : ℕ → ℕ
  /-- `_submesh.parent_cells()` -/
  parentCells : ℕ → ℕ

/-- `_facet_maps[pair]->links(i)`. -/
def PairData.row (P : PairData) (i : ℕ) : List ℤ :=
  (List.range P.nq).map (fun q => P.facets (i * P.nq + q))

/-- Geometry of the (candidate) submesh: coordinate dofs and geometry dofmap. -/
structure GeomData where
  nx : ℕ
  x : ℕ → ℝ
  xdof : ℕ → ℕ → ℕ

/-- Component `k` of the push forward of a reference point to `cell`, given the values `phi j` of
the coordinate basis at that point (library `CoordinateElement::push_forward` applied to the
coordinate dofs gathered in `Contact.cpp:601-611` / `utils.cpp:962-970`). -/
def GeomData.push (G : GeomData) (cell : ℕ) (phi : ℕ → ℝ) (k : ℕ) : ℝ :=
  ∑ j ∈ range G.nx, phi j * G.x (3 * G.xdof cell j + k)

/-! ### quadrature points and gap -/

/-- `utils.cpp:930-983` `compute_physical_points`: `pts` lists (cell, local facet), `phi r j` is the
coordinate basis function `j` at reference point `r`, `off` are the quadrature offsets. -/
def physicalPoints (G : GeomData) (nq gdim : ℕ) (off : ℕ → ℕ) (phi : ℕ → ℕ → ℝ)
    (facets : List (ℕ × ℕ)) (qp : Arr ℕ) : Arr ℕ :=
  loop facets.length (fun i => loop nq (fun q => loop gdim (fun k (a : Arr ℕ) =>
    let f := facets.getD i (0, 0)
    a.put ((i * nq + q) * gdim + k) (G.push f.1 (phi (off f.2 + q)) k)))) qp

/-- `Contact.cpp:508-626` `pack_gap`.  `phi r j` is the coordinate basis at the reference contact
point number `r = i * nq + q`; `f2c f` is the (only) submesh cell of facet `f`; `qp` is
`_qp_phys[quadrature_mt]`. -/
def packGap (P : PairData) (G : GeomData) (f2c : ℕ → ℕ) (phi : ℕ → ℕ → ℝ) (qp : ℕ → ℝ) : Arr ℕ :=
  let cstride := P.nq * P.gdim
  loop P.numFacets (fun i => loop P.nq (fun q c =>
    let f := P.facets (i * P.nq + q)
    if f < 0 then c
    else loop P.gdim (fun k (c : Arr ℕ) =>
      c.put (i * cstride + q * P.gdim + k)
        (G.push (f2c f.toNat) (phi (i * P.nq + q)) k - qp ((i * P.nq + q) * P.gdim + k))) c))
    (fun _ => 0)

/-- `Contact.cpp:952-984` `pack_gap_plane`. -/
def packGapPlane (numFacets nq gdim : ℕ) (qp : ℕ → ℝ) (g : ℝ) : Arr ℕ :=
  let cstride := nq * gdim
  loop numFacets (fun i => loop nq (fun k (c : Arr ℕ) =>
    c.put (i * cstride + (k + 1) * gdim - 1) (g - qp ((i * nq + k) * gdim + (gdim - 1)))))
    (fun _ => 0)

/-! ### test functions -/

/-- `Contact.cpp:738-749`, `1434-1445`: positions of the non-negative entries, `positive_to_old`. -/
def positiveToOld (cells : List ℤ) : List ℕ :=
  (List.range cells.length).filter (fun j => decide (cells.getD j 0 ≥ 0))

/-- `Contact.cpp:738-749`, `1434-1445`: `positive_cells`. -/
def positiveCells (cells : List ℤ) : List ℤ := (positiveToOld cells).map (fun j => cells.getD j 0)

/-- `Contact.cpp:718-730`: `cells` of facet `i`: parent cells, -1 for points without facet. -/
def testCells (P : PairData) (i : ℕ) : List ℤ :=
  (P.row i).map (fun f => if f ≥ 0 then (P.parentCells (P.subCell f.toNat) : ℤ) else -1)

/-- `Contact.cpp:750`: call of `sort_cells` for facet `i` (`perm` is scratch memory, whose previous
content is never read: modelled as zeros). -/
def testSort (P : PairData) (i : ℕ) : Except Err SortedCells :=
  sortCells (positiveCells (testCells P i))
    (List.replicate (positiveCells (testCells P i)).length 0)

/-- `perm` between two offsets (`Contact.cpp:755-756`, `1461-1462`). -/
def SortedCells.indices (s : SortedCells) (j : ℕ) : List ℕ :=
  (s.perm.take (s.offsets.getD (j + 1) 0)).drop (s.offsets.getD j 0)

/-- Row-major index of `c(i, link, k, q, l)` (`Contact.cpp:683-685`). -/
def PairData.testIndex (P : PairData) (i link k q l : ℕ) : ℕ :=
  (((i * P.ml + link) * P.nd + k) * P.nq + q) * P.bs + l

/-- `Contact.cpp:751-770`: insertion of the basis values of facet `i`. The basis row is
`i * num_q_points + indices[q]` while the destination is `positive_to_old[indices[q]]`. -/
def testFacet (P : PairData) (basis : ℕ → ℕ → ℝ) (i : ℕ) (s : SortedCells) (c : Arr ℕ) : Arr ℕ :=
  loop s.unique.length (fun j => loop P.nd (fun k => forEach (SortedCells.indices s j) (fun ind =>
    loop P.bs (fun l (c : Arr ℕ) =>
      c.put (P.testIndex i j k ((positiveToOld (testCells P i)).getD ind 0) l)
        (basis (i * P.nq + ind) k))))) c

/-- `Contact.cpp:628-774` `pack_test_functions`; `basis r k` is basis function `k` of the element at
the reference contact point `r`. The checks on value size and dof transformations are not
modelled. -/
def packTest (P : PairData) (basis : ℕ → ℕ → ℝ) : Except Err (Arr ℕ) :=
  (List.range P.numFacets).foldlM (fun c i => do
    let s ← testSort P i
    pure (testFacet P basis i s c)) (fun _ => 0)

/-- `Contact.cpp:1418-1430`: `linked_cells` of facet `i`: submesh cells, -1 without facet. -/
def gradCells (P : PairData) (i : ℕ) : List ℤ :=
  (P.row i).map (fun f => if f < 0 then -1 else (P.subCell f.toNat : ℤ))

/-- `Contact.cpp:1446-1448`. -/
def gradSort (P : PairData) (i : ℕ) : Except Err SortedCells :=
  sortCells (positiveCells (gradCells P i))
    (List.replicate (positiveCells (gradCells P i)).length 0)

/-- `Contact.cpp:1498-1499`: destination index. -/
def PairData.gradIndex (P : PairData) (i link k q l : ℕ) : ℕ :=
  i * (P.nq * P.ml * P.nd * P.gdim) + link * P.nd * P.gdim * P.nq + k * P.gdim * P.nq + q * P.gdim + l

/-- `Contact.cpp:1450-1505`: insertion of gradients of facet `i`.  `grad c r k l` is derivative `l` of
basis function `k` of cell `c` at reference point `r` (`evaluate_basis_functions`); the points are
those of `positive_to_old[indices[q]]` while the destination is `indices[q]`.  `unique_cells[j] < 0`
cannot happen after filtering but is kept: then `link` is not advanced. -/
def gradFacet (P : PairData) (grad : ℕ → ℕ → ℕ → ℕ → ℝ) (i : ℕ) (s : SortedCells) (c : Arr ℕ) :
    Arr ℕ :=
  (loop s.unique.length (fun j (st : Arr ℕ × ℕ) =>
    let u := s.unique.getD j 0
    if u < 0 then st
    else
      let cell := P.parentCells u.toNat
      (loop P.nd (fun k => forEach (SortedCells.indices s j) (fun ind => loop P.gdim (fun l (c : Arr ℕ) =>
        c.put (P.gradIndex i st.2 k ind l)
          (grad cell (P.nq * i + (positiveToOld (gradCells P i)).getD ind 0) k l)))) st.1,
        st.2 + 1)) (c, 0)).1

/-- `Contact.cpp:1368-1509` `pack_grad_test_functions`. -/
def packGradTest (P : PairData) (grad : ℕ → ℕ → ℕ → ℕ → ℝ) : Except Err (Arr ℕ) :=
  (List.range P.numFacets).foldlM (fun c i => do
    let s ← gradSort P i
    pure (gradFacet P grad i s c)) (fun _ => 0)

/-! ### functions on the opposite surface -/

/-- `Contact.cpp:818-950` `pack_u_contact`.  `f2c` is the submesh facet-cell connectivity, `dofs` the
submesh dofmap, `uSub` the copied function (value size 1). The work vector `coefficients` is
modelled by its defining expression (`bs_dof = bs_element`). -/
def packU (P : PairData) (f2c : ℕ → ℕ) (dofs : ℕ → ℕ → ℕ) (basis : ℕ → ℕ → ℝ) (uSub : ℕ → ℝ) :
    Arr ℕ :=
  let cstride := P.nq * P.bs
  loop P.numFacets (fun i => loop P.nq (fun q c =>
    let f := P.facets (i * P.nq + q)
    if f < 0 then c
    else
      let cell := f2c f.toNat
      loop P.bs (fun k => loop P.nd (fun l (c : Arr ℕ) =>
        c.acc (cstride * i + q * P.bs + k)
          (uSub (P.bs * dofs cell l + k) * basis (P.nq * i + q) l))) c)) (fun _ => 0)

/-- `Contact.cpp:1511-1620` `pack_grad_u_contact`. `dofs` is the parent dofmap, `grad` as above. -/
def packGradU (P : PairData) (dofs : ℕ → ℕ → ℕ) (grad : ℕ → ℕ → ℕ → ℕ → ℝ) (u : ℕ → ℝ) : Arr ℕ :=
  let cstride := P.nq * P.bs * P.gdim
  loop P.numFacets (fun i => loop P.nq (fun q c =>
    let f := P.facets (i * P.nq + q)
    if f < 0 then c
    else
      let cell := P.parentCells (P.subCell f.toNat)
      loop P.bs (fun k => loop P.gdim (fun j => loop P.nd (fun l (c : Arr ℕ) =>
        c.acc (cstride * i + q * P.bs * P.gdim + k * P.gdim + j)
          (u (P.bs * dofs cell l + k) * grad cell (P.nq * i + q) l j)))) c)) (fun _ => 0)

/-! ### cropping -/

/-- `Contact.cpp:776-816` `crop_invalid_points`: the new contact map; `offsets[f] = f * nq`. -/
noncomputable def crop (P : PairData) (gap ny : ℕ → ℝ) (tol : ℝ) : ℕ → ℤ :=
  loop P.numFacets (fun f => loop P.nq (fun q (data : ℕ → ℤ) =>
    let dot := loop P.gdim (fun i s =>
      s + gap (f * P.nq * P.gdim + q * P.gdim + i) * ny (f * P.nq * P.gdim + q * P.gdim + i)) (0 : ℝ)
    let norm := Real.sqrt (loop P.gdim (fun i s =>
      s + gap (f * P.nq * P.gdim + q * P.gdim + i) * gap (f * P.nq * P.gdim + q * P.gdim + i)) 0)
    if norm > tol then Function.update data (f * P.nq + q) (-1)
    else if norm > 1 / 10 ^ 7 then
      if |dot| / norm < 7 / 10 then Function.update data (f * P.nq + q) (-1) else data
    else data)) P.facets

end Verif.Packing
