import Verif.Model.Assembly
import Verif.Model.Coefficients
import Verif.Model.ContactProblem

/-!
`ContactProblem` with the C++ functions it calls put together: the arrays packed by
`contact_problem.py` are the results of the packing functions (`Model/Packing.lean`,
`Model/Coefficients.lean`), the kernels it stores are those of `generate_contact_kernel`
(`Model/Dispatch.lean`), and its `assemble_vector` and `assemble_matrix` run the assemblers
(`Model/Assembly.lean`) with them.
-/

namespace Verif.ContactProblem

open Verif.Packing Verif.Coefficients Verif.SubMesh

noncomputable section

/-- The data of a contact problem.  `G` is the type of deformed geometries.  Library data: `dofs` the
dofmap of the (blocked, `gdim` components) displacement space, `phi r a`, `dphi k r a` its tabulated
scalar basis functions at the facet quadrature points (those of local facet `f` start at `off f`),
`geo`, `cphi` the mesh geometry and the tabulated derivatives of the coordinate element, `inv`, `det` the
inverse of a Jacobian and the surface determinant of a local facet.  `facets i` are the active facets of
the quadrature surface of pair `i`, the owned ones first; `map g i` is the contact map which
`create_distance_map(i)` finds in geometry `g`, `basis g i r a` basis function `a` at the contact point
`r`.  `space` is the displacement space and its copy on the contact submesh. -/
structure System (G : Type) where
  numPairs : ℕ
  nq : ℕ
  nd : ℕ
  gdim : ℕ
  tdim : ℕ
  cell : Kernels.CellType
  affine : Bool
  off : ℕ → ℕ
  phi : ℕ → ℕ → ℝ
  dphi : ℕ → ℕ → ℕ → ℝ
  weights : ℕ → ℕ → ℝ
  nref : ℕ → ℕ → ℝ
  geo : GeomData
  cphi : ℕ → ℕ → ℕ → ℝ
  inv : (ℕ → ℕ → ℝ) → ℕ → ℕ → ℝ
  det : ℕ → (ℕ → ℕ → ℝ) → ℝ
  facets : ℕ → List (ℕ × ℕ)
  localFacets : ℕ → ℕ
  map : G → ℕ → ℕ → ℤ
  subCell : ℕ → ℕ
  space : Spaces
  basis : G → ℕ → ℕ → ℕ → ℝ
  raytracing : ℕ → Bool
  gap : G → ℕ → Mat
  nx : G → ℕ → Mat
  ny : G → ℕ → Mat

variable {G : Type} (Y : System G)

/-- The contact map of pair `i` found in geometry `g`, with `_max_links` as set by
`create_distance_map` (`Contact.cpp:338`). -/
def System.pair (g : G) (i : ℕ) : PairData where
  numFacets := Y.localFacets i
  nq := Y.nq
  nd := Y.nd
  bs := Y.gdim
  ml := Y.nq
  gdim := Y.gdim
  facets := Y.map g i
  subCell := Y.subCell
  parentCells := Y.space.parentCell

/-- A flat C++ array returned as a numpy array (`wrappers.cpp:281-289` and the other packing
functions). -/
def toMat (rows cols : ℕ) (c : ℕ → ℝ) : Mat := ⟨rows, cols, fun e m => c (e * cols + m)⟩

/-- `pack_test_functions(i, V)` as called by `contact_problem.py:297-300`, `359-362`
(`Contact.cpp:628-774`). Simplification: if it raises there is an empty array here. -/
def System.test (g : G) (i : ℕ) : Mat :=
  match packTest (Y.pair g i) (Y.basis g i) with
  | .ok c => toMat (Y.localFacets i) (Y.nq * Y.nq * Y.nd * Y.gdim) c
  | .error _ => zeros 0 0

/-- What `ContactProblem` sees. -/
def System.static : Static G where
  numPairs := Y.numPairs
  nq := Y.nq
  gdim := Y.gdim
  nd := Y.nd
  bs := Y.gdim
  raytracing := Y.raytracing
  entities := fun i => (Y.facets i).length
  localFacets := Y.localFacets
  gap := Y.gap
  nx := Y.nx
  ny := Y.ny
  test := Y.test

/-- The displacement function with dofs `u`. -/
def System.func (u : ℕ → ℝ) : Func where
  bs := Y.gdim
  dbs := Y.gdim
  ndofs := Y.nd
  vs := 1
  dofs := Y.space.parent
  data := u

/-- `self.entities[i]` (`contact_problem.py:102-105`): (cell, local facet) pairs, flattened. -/
def System.entities (i : ℕ) : List ℕ := (Y.facets i).flatMap (fun p => [p.1, p.2])

/-- `pack_coefficient_quadrature(du, q_deg, entities[i])` (`contact_problem.py:128-132`); the element
needs no dof transformations. -/
def System.packVal (u : ℕ → ℝ) (i : ℕ) : Mat :=
  match packCoefficient (Y.func u) .exteriorFacet (Y.entities i) Y.nq Y.off (fun r a _ => Y.phi r a) false
      Y.affine (fun _ _ U => U) with
  | .ok c => toMat (Y.facets i).length c.2 c.1
  | .error _ => zeros 0 0

/-- `pack_gradient_quadrature(du, q_deg, entities[i])` (`contact_problem.py:136-141`). -/
def System.packGrad (u : ℕ → ℝ) (i : ℕ) : Mat :=
  match packGradient (Y.func u) .exteriorFacet (Y.entities i) Y.nq Y.tdim Y.gdim Y.off
      (fun k r a _ => Y.dphi (k - 1) r a) false Y.affine Y.geo Y.cphi Y.inv with
  | .ok c => toMat (Y.facets i).length c.2 c.1
  | .error _ => zeros 0 0

/-- `pack_u_contact(i, du)` (`contact_problem.py:144-147`, `Contact.cpp:818-950`). -/
def System.packOpp (u : ℕ → ℝ) (g : G) (i : ℕ) : Mat :=
  toMat (Y.localFacets i) (Y.nq * Y.gdim)
    (packU (Y.pair g i) Y.subCell Y.space.sub (Y.basis g i) (copyFunction Y.space u (fun _ => 0)))

/-- What `update_contact_data` packs for the displacement increment with dofs `u`. -/
def System.du (u : ℕ → ℝ) : Du G where
  val := Y.packVal u
  grad := Y.packGrad u
  opp := Y.packOpp u

/-- The data a kernel with `max_links = ml` uses on a facet (`KernelData.cpp:71-131`,
`utils.cpp:585-607`). -/
def System.kd (ml cell f : ℕ) : Kernels.KD where
  gdim := Y.gdim
  tdim := Y.tdim
  nd := Y.nd
  bs := Y.gdim
  maxLinks := ml
  nq := Y.nq
  affine := Y.affine
  qStart := Y.off f
  inv := fun r => Y.inv (Y.geo.jac cell (Y.cphi r))
  det := fun r => Y.det f (Y.geo.jac cell (Y.cphi r))
  nref := Y.nref f
  phi := Y.phi
  dphi := Y.dphi
  weights := Y.weights f

/-- The constants `w` of the kernels: gamma and theta (`contact_problem.py:239`). -/
def constants (consts : ℝ × ℝ) (n : ℕ) : ℝ := if n = 0 then consts.1 else consts.2

/-- A stored kernel (`contact_problem.py:218-236`, `contact_kernels.cpp:1266-1283`).  Simplification:
a kernel that could not be generated does nothing here; in the code `generate_kernel` has raised. -/
def System.kernel (consts : ℝ × ℝ) (k : Kernels.Kernel × ℕ) : Assembly.Kern :=
  fun row cell f links qs A =>
    match Kernels.generateContactKernel k.1 ⟨Y.cell, Y.gdim, Y.gdim, false⟩ (Y.kd k.2 cell f) with
    | .ok fn => fn row (constants consts) links qs A
    | .error _ => A

/-- What the assemblers read for pair `i` (`Contact.cpp:1131-1183`, `1249-1308`). -/
def System.assemblyPair (s : State G) (i : ℕ) : Assembly.Pair where
  facets := fun e => (Y.facets i).getD e (0, 0)
  numLocal := Y.localFacets i
  map := fun e => (Y.pair (s.detected i) i).row e
  s2p := Y.subCell
  pc := Y.space.parentCell
  maxLinks := maxLinks Y.static s
  nd := Y.nd
  bs := Y.gdim
  dofs := Y.space.parent
  transforms := false

/-- A numpy array passed to C++ (`wrappers.cpp:251-280`). -/
def flat (m : Mat) (n : ℕ) : ℝ := m.v (n / m.cols) (n % m.cols)

/-- `contact_problem.py:403-423` `assemble_vector`. (Without coefficients the code raises
`IndexError`.) -/
def System.assembleVector (s : State G) (b : Arr ℕ) : Except Assembly.Err (Arr ℕ) :=
  match s.coeffs with
  | none => .error .invalidArgument
  | some cs => Assembly.problemVector ((List.range Y.numPairs).map (Y.assemblyPair s))
      (s.vecKernels.map (Y.kernel s.consts)) (fun i => flat (cs i)) (fun i => (cs i).cols) b

/-- `contact_problem.py:426-448` `assemble_matrix`. -/
def System.assembleMatrix (s : State G) (A : Arr (ℕ × ℕ)) : Except Assembly.Err (Arr (ℕ × ℕ)) :=
  match s.coeffs with
  | none => .error .invalidArgument
  | some cs => Assembly.problemMatrix ((List.range Y.numPairs).map (Y.assemblyPair s))
      (s.matKernels.map (Y.kernel s.consts)) (fun i => flat (cs i)) (fun i => (cs i).cols) A

end

end Verif.ContactProblem
