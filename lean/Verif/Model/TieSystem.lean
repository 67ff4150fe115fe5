import Verif.Model.Assembly
import Verif.Model.Coefficients
import Verif.Model.MeshTieData

/-!
`MeshTie` with the C++ functions it calls put together: the arrays it copies into its coefficient vectors
are the results of the packing functions (`Model/Packing.lean`, `Model/Coefficients.lean`) for the contact
map which the constructor crops, its kernels are those of `generate_meshtie_kernel` and
`generate_poisson_kernel` (`Model/Dispatch.lean`), and its `assemble_vector` and `assemble_matrix` run the
assemblers (`Model/Assembly.lean`) with them.
-/

namespace Verif.TieData

open Verif.Packing Verif.SubMesh Finset

noncomputable section

/-- What the constructor is given or gets from the library.  `weights`, `nref`, `geo`, `cphi`, `inv`, `det`:
quadrature weights, reference normals, mesh geometry, tabulated derivatives of the coordinate element, inverse
of a Jacobian, surface determinant of a local facet; the quadrature points of local facet `f` start at
`off f`.  `facets i` are the active facets of the quadrature surface of pair `i`, the `localFacets i` owned
ones first; `closest i r` is the submesh facet which `create_distance_map(i)` finds for quadrature point `r`
(closest point search: every point gets one), `subCell` the submesh cell of a submesh facet, `parentCell` the
parent cells of the `numCells` submesh cells; `gap i`, `ny i` are the results of `pack_gap(i)`, `pack_ny(i)`
and `h i e` is the size of the cell of facet `e`. -/
structure TieMesh where
  numPairs : ℕ
  nq : ℕ
  gdim : ℕ
  tdim : ℕ
  cell : Kernels.CellType
  affine : Bool
  off : ℕ → ℕ
  weights : ℕ → ℕ → ℝ
  nref : ℕ → ℕ → ℝ
  geo : GeomData
  cphi : ℕ → ℕ → ℕ → ℝ
  inv : (ℕ → ℕ → ℝ) → ℕ → ℕ → ℝ
  det : ℕ → (ℕ → ℕ → ℝ) → ℝ
  facets : ℕ → List (ℕ × ℕ)
  localFacets : ℕ → ℕ
  closest : ℕ → ℕ → ℕ
  subCell : ℕ → ℕ
  parentCell : ℕ → ℕ
  numCells : ℕ
  gap : ℕ → ℕ → ℝ
  ny : ℕ → ℕ → ℝ
  h : ℕ → ℕ → ℝ

/-- A function space on the mesh: basis functions per cell, block size, scalar basis functions `phi r k` and
derivatives `dphi j r k` at the facet quadrature points, `phi0 f k` at the midpoint of local facet `f`
(quadrature degree 0), dofmap of the mesh and of the copy of the space on the submesh, and what
`evaluate_basis_functions` returns at the contact points: `basis i r k`, and `grad i c r k l` for cell `c`. -/
structure TieElement where
  nd : ℕ
  bs : ℕ
  phi : ℕ → ℕ → ℝ
  dphi : ℕ → ℕ → ℕ → ℝ
  phi0 : ℕ → ℕ → ℝ
  dofs : ℕ → ℕ → ℕ
  sub : ℕ → ℕ → ℕ
  basis : ℕ → ℕ → ℕ → ℝ
  grad : ℕ → ℕ → ℕ → ℕ → ℕ → ℝ

variable (M : TieMesh) (E : TieElement)

/-- `MeshTie.cpp:43`: `*std::max_element(h_p.begin(), h_p.end())`. -/
def TieMesh.maxH (i : ℕ) : ℝ := ((List.range (M.localFacets i)).map (M.h i)).foldl max (M.h i 0)

/-- The contact map of pair `i` as `create_distance_map` leaves it, with `_max_links` (`Contact.cpp:338`),
for a space with `nd` basis functions per cell and block size `bs` (cropping does not use them). -/
def TieMesh.searched (nd bs i : ℕ) : PairData where
  numFacets := M.localFacets i
  nq := M.nq
  nd := nd
  bs := bs
  ml := M.nq
  gdim := M.gdim
  facets := fun r => (M.closest i r : ℤ)
  subCell := M.subCell
  parentCells := M.parentCell

/-- `MeshTie.cpp:27-48`: the constructor removes points whose contact point is too far away or whose gap is
not along the normal. -/
def TieMesh.map (i : ℕ) : ℕ → ℤ :=
  if M.localFacets i = 0 then fun r => (M.closest i r : ℤ)
  else crop (M.searched 0 1 i) (M.gap i) (M.ny i) (M.maxH i)

/-- The contact map the packing functions use. -/
def TieMesh.pair (i : ℕ) : PairData := { M.searched E.nd E.bs i with facets := M.map i }

/-- The space and its copy on the submesh. -/
def TieMesh.spaces : Spaces where
  nd := E.nd
  bs := E.bs
  numCells := M.numCells
  sub := E.sub
  parent := E.dofs
  parentCell := M.parentCell

/-- What `MeshTie` keeps from the constructor (`MeshTie.cpp:10-50`); `mesh::h` returns one value per
facet. -/
def TieMesh.static : Static ℝ where
  pairs := M.numPairs
  nf := M.localFacets
  nq := M.nq
  gdim := M.gdim
  ml := M.nq
  h := fun i => ⟨1, M.h i⟩

/-- A packing function that may raise. Simplification: if it raises there is an empty array here. -/
def packed (c : ℕ) : Except Entities.Err (Arr ℕ) → Pk ℝ
  | .ok v => ⟨c, v⟩
  | .error _ => ⟨0, fun _ => 0⟩

/-- `pack_test_functions(i, V)` and `pack_grad_test_functions(i, V)` (`Contact.cpp:628-774`,
`1368-1509`). -/
def TieMesh.space : Space ℝ where
  nd := E.nd
  bs := E.bs
  test := fun i => packed (M.nq * M.nq * E.nd * E.bs) (packTest (M.pair E i) (E.basis i))
  gtest := fun i => packed (M.nq * M.nq * E.nd * M.gdim) (packGradTest (M.pair E i) (E.grad i))

/-- The function with dofs `u`. -/
def TieElement.fem (u : ℕ → ℝ) : Coefficients.Func where
  bs := E.bs
  dbs := E.bs
  ndofs := E.nd
  vs := 1
  dofs := E.dofs
  data := u

/-- `Contact::active_entities` (`MeshTie.cpp:175`, `324`, `358`): (cell, local facet) pairs, flattened. -/
def TieMesh.entities (i : ℕ) : List ℕ := (M.facets i).flatMap (fun p => [p.1, p.2])

/-- Result of `pack_coefficient_quadrature` and `pack_gradient_quadrature`. -/
def packedC : Except Entities.Err (Arr ℕ × ℕ) → Pk ℝ
  | .ok c => ⟨c.2, c.1⟩
  | .error _ => ⟨0, fun _ => 0⟩

/-- What is packed for the function with dofs `u` (`MeshTie.cpp:185-194`, `327-331`, `361-367`; no dof
transformations). -/
def TieMesh.func (u : ℕ → ℝ) : Func ℝ where
  nd := E.nd
  bs := E.bs
  const0 := fun i => packedC (Coefficients.packCoefficient (E.fem u) .exteriorFacet (M.entities i) 1
    (fun f => f) (fun r k _ => E.phi0 r k) false M.affine (fun _ _ U => U))
  val := fun i => packedC (Coefficients.packCoefficient (E.fem u) .exteriorFacet (M.entities i) M.nq M.off
    (fun r k _ => E.phi r k) false M.affine (fun _ _ U => U))
  opp := fun i => ⟨M.nq * E.bs, packU (M.pair E i) M.subCell E.sub (E.basis i)
    (copyFunction (M.spaces E) u (fun _ => 0))⟩
  grad := fun i => packedC (Coefficients.packGradient (E.fem u) .exteriorFacet (M.entities i) M.nq M.tdim
    M.gdim M.off (fun k r a _ => E.dphi (k - 1) r a) false M.affine M.geo M.cphi M.inv)
  gradOpp := fun i => ⟨M.nq * E.bs * M.gdim, packGradU (M.pair E i) E.dofs (E.grad i) u⟩

/-- The data a kernel uses on a facet (`KernelData.cpp:71-131`, `utils.cpp:585-607`). -/
def TieMesh.kd (cell f : ℕ) : Kernels.KD where
  gdim := M.gdim
  tdim := M.tdim
  nd := E.nd
  bs := E.bs
  maxLinks := M.nq
  nq := M.nq
  affine := M.affine
  qStart := M.off f
  inv := fun r => M.inv (M.geo.jac cell (M.cphi r))
  det := fun r => M.det f (M.geo.jac cell (M.cphi r))
  nref := M.nref f
  phi := E.phi
  dphi := E.dphi
  weights := M.weights f

/-- The kernel of an assembly call (`meshtie_kernels.cpp:436-446`, `748-756`).  Simplifications: a kernel that
was not or could not be generated does nothing here; in the code an empty `std::function` is called, or
`generate_kernel_data` has raised. The value size of a blocked space is its block size. -/
def TieMesh.kern (p : Problem) (l : Launch ℝ) : Assembly.Kern := fun row cell f links qs A =>
  match l.kernel with
  | none => A
  | some ks =>
    match (match p with
      | .poisson => Kernels.generatePoissonKernel l.fn ⟨M.cell, E.bs, E.bs, false⟩ (M.kd E cell f) ks
      | _ => Kernels.generateMeshtieKernel l.fn ⟨M.cell, E.bs, E.bs, false⟩ (M.kd E cell f) ks) with
    | .ok fn => fn row (fun n => l.consts.getD n 0) links qs A
    | .error _ => A

/-- What the assemblers read for pair `i` (`Contact.cpp:1131-1183`, `1249-1308`). -/
def TieMesh.assemblyPair (i : ℕ) : Assembly.Pair where
  facets := fun e => (M.facets i).getD e (0, 0)
  numLocal := M.localFacets i
  map := fun e => (M.pair E i).row e
  s2p := M.subCell
  pc := M.parentCell
  maxLinks := M.nq
  nd := E.nd
  bs := E.bs
  dofs := E.dofs
  transforms := false

/-- `MeshTie::assemble_vector` (`MeshTie.cpp:467-499`) for the space `V` given to it. -/
def TieMesh.assembleVector (p : Problem) (s : State ℝ) (b : Arr ℕ) : Except Assembly.Err (Arr ℕ) :=
  (TieData.assembleVector M.static p s).foldlM (fun b l =>
    Assembly.assembleVector (M.assemblyPair E l.pair) (M.kern E p l) l.buf.val l.stride b) b

/-- `MeshTie::assemble_matrix` (`MeshTie.cpp:501-532`), adding values to a matrix. -/
def TieMesh.assembleMatrix (p : Problem) (s : State ℝ) (A : Arr (ℕ × ℕ)) :
    Except Assembly.Err (Arr (ℕ × ℕ)) :=
  (TieData.assembleMatrix M.static p s).foldlM (fun A l =>
    Assembly.assembleMatrix (Assembly.addValues E.bs) (M.assemblyPair E l.pair) (M.kern E p l) l.buf.val
      l.stride A) A

end

end Verif.TieData
