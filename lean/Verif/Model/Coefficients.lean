import Verif.Model.Packing

/-!
`cpp/QuadratureRule.cpp`, `cpp/coefficients.cpp` `pack_coefficient_quadrature`,
`pack_gradient_quadrature`; `cpp/utils.cpp` `evaluate_basis_functions`.

Tabulated reference basis functions (basix), dof transformations, Piola maps and the inverse of the
Jacobian are library functions and therefore parameters.
-/

namespace Verif.Coefficients

open Verif.Entities Verif.Ghosting Verif.Packing Finset

/-! ### quadrature rules -/

/-- Members of `QuadratureRule` (`QuadratureRule.h`). -/
structure QRule where
  /-- topological dimension of the cell -/
  tdim : ℕ
  points : List ℝ
  weights : List ℝ
  offset : List ℕ

/-- `QuadratureRule.cpp:28-53`: the rule for the cell itself: one entity, quadrature `w`, `qp` of
the cell. Simplification: `num_sub_entities` is 1 in this branch (a cell has one sub-entity of its
own dimension), so the loop over sub-entities is a single copy. -/
def cellRule (tdim : ℕ) (w : List ℝ) (qp : ℕ → ℕ → ℝ) : QRule :=
  ⟨tdim, (List.range w.length).flatMap (fun q => (List.range tdim).map (fun d => qp q d)), w,
    [0, 1 * w.length]⟩

/-- `QuadratureRule.cpp:54-109`: one rule per sub-entity. `w i` are the weights for the type of
entity `i`, `phi i q v` the vertex functions of the entity at its quadrature points, `coords i v d`
its vertices on the reference cell. Points and weights are appended entity by entity. -/
def entityRule (tdim n : ℕ) (w : ℕ → List ℝ) (nv : ℕ → ℕ) (phi : ℕ → ℕ → ℕ → ℝ)
    (coords : ℕ → ℕ → ℕ → ℝ) : QRule :=
  let pw := (List.range n).foldl (fun (s : List ℝ × List ℝ) i =>
    (s.1 ++ (List.range (w i).length).flatMap (fun q => (List.range tdim).map (fun d =>
        ∑ v ∈ range (nv i), phi i q v * coords i v d)),
      s.2 ++ w i)) ([], [])
  ⟨tdim, pw.1, pw.2, prefixSums 0 ((List.range n).map (fun i => (w i).length))⟩

/-- `QuadratureRule.cpp:131-135` `num_points(i)`. -/
def QRule.numPoints (r : QRule) (i : ℕ) : ℕ := r.offset.getD (i + 1) 0 - r.offset.getD i 0

/-- `QuadratureRule.cpp:142-150` `points(i)`: entry `(q, d)` of the rows
`offset[i] .. offset[i+1]` of the point matrix. -/
noncomputable def QRule.pointsOf (r : QRule) (i q d : ℕ) : ℝ :=
  r.points.getD ((r.offset.getD i 0 + q) * r.tdim + d) 0

/-- `QuadratureRule.cpp:152-157` `weights(i)`. -/
def QRule.weightsOf (r : QRule) (i : ℕ) : List ℝ := links r.weights r.offset i

/-! ### packing of functions -/

/-- A function and its space: element block size, dofmap block size, number of cell dofs, number of
scalar (unblocked) basis functions, reference value size `tab_shape[3]`, dofmap and dof array. -/
structure Func where
  bs : ℕ
  dbs : ℕ
  ndofs : ℕ
  vs : ℕ
  dofs : ℕ → ℕ → ℕ
  data : ℕ → ℝ

/-- `coefficients.cpp:117-128`, `418-429`: number of active entities. -/
def numActive : Integral → List ℕ → Except Err ℕ
  | .cell, a => .ok a.length
  | .exteriorFacet, a => .ok (a.length / 2)
  | _, _ => .error .invalidArgument

/-- `coefficients.cpp:192-206`, `284-298`, `453-467`: cell and entity index of entity `i`. -/
def entityOf (t : Integral) (a : List ℕ) (i : ℕ) : ℕ × ℕ :=
  match t with
  | .cell => (a.getD i 0, 0)
  | _ => (a.getD (2 * i) 0, a.getD (2 * i + 1) 0)

/-- `coefficients.cpp:281-318`: elements without dof transformations; `ref r a l` is component `l`
of reference basis function `a` at point `r`. -/
def packPlain (F : Func) (nq : ℕ) (off : ℕ → ℕ) (ref : ℕ → ℕ → ℕ → ℝ) (cstride : ℕ)
    (i cell entity : ℕ) : Arr ℕ → Arr ℕ :=
  loop F.ndofs (fun d => loop F.dbs (fun b => loop nq (fun q => loop F.vs (fun l (c : Arr ℕ) =>
    c.acc (cstride * i + q * F.bs * F.vs + l + (d * F.dbs + b) % F.bs)
      (ref (off entity + q) ((d * F.dbs + b) / F.bs) l * F.data (F.dbs * F.dofs cell d + b))))))

/-- `coefficients.cpp:189-277`: elements with dof transformations. `T cell r U` is
`transformed_push_forward` (`coefficients.cpp:16-51`): orientation of `cell`, then the push forward
with the Jacobian at point `r`; for affine cells the Jacobian is taken at the first point. -/
def packTransformed (F : Func) (nq : ℕ) (off : ℕ → ℕ) (ref : ℕ → ℕ → ℕ → ℝ) (affine : Bool)
    (T : ℕ → ℕ → (ℕ → ℕ → ℝ) → ℕ → ℕ → ℝ) (valueSize cstride : ℕ)
    (i cell entity : ℕ) : Arr ℕ → Arr ℕ :=
  loop F.ndofs (fun d => loop nq (fun q => loop F.dbs (fun k => loop F.vs (fun j (c : Arr ℕ) =>
    c.acc (cstride * i + q * valueSize + k + j)
      (T cell (if affine then off entity else off entity + q) (ref (off entity + q)) d j *
        F.data (F.dbs * F.dofs cell d + k))))))

/-- `coefficients.cpp:53-323` `pack_coefficient_quadrature`: coefficients and stride. The cell type
check is in `C55`. -/
def packCoefficient (F : Func) (t : Integral) (entities : List ℕ) (nq : ℕ) (off : ℕ → ℕ)
    (ref : ℕ → ℕ → ℕ → ℝ) (transforms affine : Bool)
    (T : ℕ → ℕ → (ℕ → ℕ → ℝ) → ℕ → ℕ → ℝ) : Except Err (Arr ℕ × ℕ) := do
  let n ← numActive t entities
  let valueSize := F.bs * F.vs
  let cstride := valueSize * nq
  let c := loop n (fun i =>
    let e := entityOf t entities i
    if transforms then packTransformed F nq off ref affine T valueSize cstride i e.1 e.2
    else packPlain F nq off ref cstride i e.1 e.2) (fun _ => 0)
  .ok (c, cstride)

/-- Library `compute_jacobian`: `J(i, j) = Σ_n x_n[i] dφ_n/dX_j`, with `dphi (j + 1) n` the
derivative in direction `j` of coordinate basis function `n`. -/
def _root_.Verif.Packing.GeomData.jac (G : GeomData) (cell : ℕ) (dphi : ℕ → ℕ → ℝ) (i j : ℕ) : ℝ :=
  ∑ n ∈ range G.nx, G.x (3 * G.xdof cell n + i) * dphi (j + 1) n

/-- `coefficients.cpp:325-555` `pack_gradient_quadrature`. `dref k r a l`: derivative number `k`
(1 .. tdim) of reference basis function `a`, component `l`, at point `r`; `dphi r` the derivatives
of the coordinate basis at point `r`; `inv` is library `compute_jacobian_inverse`. -/
def packGradient (F : Func) (t : Integral) (entities : List ℕ) (nq tdim gdim : ℕ) (off : ℕ → ℕ)
    (dref : ℕ → ℕ → ℕ → ℕ → ℝ) (transforms affine : Bool) (G : GeomData) (dphi : ℕ → ℕ → ℕ → ℝ)
    (inv : (ℕ → ℕ → ℝ) → ℕ → ℕ → ℝ) : Except Err (Arr ℕ × ℕ) := do
  let n ← numActive t entities
  let cstride := F.bs * F.vs * nq * gdim
  if transforms then throw .invalidArgument
  let c := loop n (fun i =>
    let e := entityOf t entities i
    loop F.ndofs (fun d => loop F.dbs (fun b => loop nq (fun q => loop F.vs (fun l =>
      loop gdim (fun j => loop tdim (fun k (c : Arr ℕ) =>
        let K := inv (G.jac e.1 (dphi (if affine then off e.2 else off e.2 + q)))
        c.acc (cstride * i + q * F.bs * F.vs * gdim + (l + (d * F.dbs + b) % F.bs) * gdim + j)
          (K k j * dref (k + 1) (off e.2 + q) ((d * F.dbs + b) / F.bs) l *
            F.data (F.dbs * F.dofs e.1 d + b))))))))) (fun _ => 0)
  .ok (c, cstride)

/-! ### `evaluate_basis_functions` -/

/-- Inputs of `evaluate_basis_functions`: `ref j p m n` derivative `j` (0 = value) of reference basis
function `m`, component `n`, at point `p`; `T cell p` the dof transformation of the cell followed by
the push forward at point `p`; `inv` the library inverse of a Jacobian. -/
structure BasisIn where
  tdim : ℕ
  gdim : ℕ
  nd : ℕ
  vs : ℕ
  mixed : Bool
  xSize : ℕ
  cells : List ℤ
  numDer : ℕ
  ref : ℕ → ℕ → ℕ → ℕ → ℝ
  T : ℕ → ℕ → (ℕ → ℕ → ℝ) → ℕ → ℕ → ℝ
  G : GeomData
  dphi : ℕ → ℕ → ℕ → ℝ
  inv : (ℕ → ℕ → ℝ) → ℕ → ℕ → ℝ

/-- `utils.cpp:505-581`: the work for one point; the array is indexed like the row-major `mdspan`
`basis_span(k, p, m, n)`. -/
def BasisIn.point (B : BasisIn) (p : ℕ) (a : Arr (ℕ × ℕ × ℕ × ℕ)) : Arr (ℕ × ℕ × ℕ × ℕ) :=
  let cell := B.cells.getD p (-1)
  if cell < 0 then a
  else
    let K := B.inv (B.G.jac cell.toNat (B.dphi p))
    let temp := fun j => B.T cell.toNat p (B.ref j p)
    let a := loop B.nd (fun m => loop B.vs (fun n (a : Arr (ℕ × ℕ × ℕ × ℕ)) =>
      a.put (0, p, m, n) (temp 0 m n))) a
    loop (B.gdim * B.numDer) (fun k => loop (B.numDer * B.tdim) (fun j =>
      loop B.nd (fun m => loop B.vs (fun n (a : Arr (ℕ × ℕ × ℕ × ℕ)) =>
        a.acc (k + 1, p, m, n) (K j k * temp (j + 1) m n))))) a

/-- `utils.cpp:382-583` `evaluate_basis_functions`. -/
def evaluateBasis (B : BasisIn) (a : Arr (ℕ × ℕ × ℕ × ℕ)) : Except Err (Arr (ℕ × ℕ × ℕ × ℕ)) :=
  if B.xSize / B.tdim ≠ B.cells.length then .error .invalidArgument
  else if B.xSize = 0 then .ok a
  else if B.mixed then .error .invalidArgument
  else .ok (loop B.cells.length B.point (fun _ => 0))

end Verif.Coefficients
