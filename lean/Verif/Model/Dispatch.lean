import Verif.Model.MeshTieKernels
import Verif.Model.RigidKernels

/-!
The kernel generators: input checks and the `switch` over kernel types.  A kernel is modelled by the
function it computes, from coefficients, constants, number of links and quadrature indices; the
geometry of the facet is `KD`.
-/

namespace Verif.Kernels

/-- `utils.h:43-54` `enum class Kernel`. -/
inductive Kernel where
  | rhs | jac | meshTieRhs | meshTieJac | thermoElasticRhs
  | trescaRhs | trescaJac | coulombRhs | coulombJac
  deriving DecidableEq

/-- `dolfinx::mesh::CellType`. -/
inductive CellType where
  | point | interval | triangle | tetrahedron | quadrilateral | hexahedron | prism | pyramid
  deriving DecidableEq

/-- The exceptions thrown: `UnsupportedCellException` and `std::invalid_argument`. -/
inductive KernelErr where
  | unsupportedCell | invalidArgument
  deriving DecidableEq

/-- What the generators ask of a function space: `mesh()->topology()->cell_type()`,
`dofmap()->bs()`, `value_size()`, `element()->needs_dof_transformations()`. -/
structure SpaceInfo where
  cell : CellType
  bs : ℕ
  valueSize : ℕ
  transforms : Bool

/-- `kernel_fn` (`utils.h`), for fixed geometry. -/
abbrev KernelFn := (ℕ → ℝ) → (ℕ → ℝ) → ℕ → List ℕ → Arr (ℕ × ℕ) → Arr (ℕ × ℕ)

/-- `error_handling.h:19-21` `unsupported_cells`. -/
def unsupportedCells : List CellType := [.prism, .pyramid, .interval]

/-- `error_handling.cpp:10-18` `check_cell_type`. -/
def checkCellType (c : CellType) : Except KernelErr Unit :=
  if unsupportedCells.contains c then .error .unsupportedCell else .ok ()

/-- `KernelData.cpp:28-51`: the checks of the `KernelData` constructor. -/
def kernelDataChecks (V : SpaceInfo) : Except KernelErr Unit := do
  checkCellType V.cell
  if V.transforms then throw .invalidArgument
  if V.valueSize / V.bs ≠ 1 then throw .invalidArgument

noncomputable section

/-- `contact_kernels.cpp:10-47`, `1266-1283` `generate_contact_kernel`. -/
def generateContactKernel (t : Kernel) (V : SpaceInfo) (D : KD) : Except KernelErr KernelFn := do
  kernelDataChecks V
  match t with
  | .rhs => .ok (unbiasedRhs D)
  | .jac => .ok (unbiasedJac D)
  | .trescaRhs => .ok (trescaRhs D)
  | .trescaJac => .ok (trescaJac D)
  | .coulombRhs => .ok (coulombRhs D)
  | .coulombJac => .ok (coulombJac D)
  | _ => .error .invalidArgument

/-- `meshtie_kernels.cpp:10-25`, `436-446` `generate_meshtie_kernel`. -/
def generateMeshtieKernel (t : Kernel) (V : SpaceInfo) (D : KD) (cstrides : List ℕ) :
    Except KernelErr KernelFn := do
  checkCellType V.cell
  kernelDataChecks V
  match t with
  | .meshTieRhs => .ok (tieRhs D (offsets cstrides))
  | .meshTieJac => .ok (tieJac D (offsets cstrides))
  | .thermoElasticRhs => .ok (fun c _ => thermoRhs D (offsets cstrides) c)
  | _ => .error .invalidArgument

/-- `meshtie_kernels.cpp:450-468`, `748-756` `generate_poisson_kernel`. -/
def generatePoissonKernel (t : Kernel) (V : SpaceInfo) (D : KD) (cstrides : List ℕ) :
    Except KernelErr KernelFn := do
  if V.bs ≠ 1 then throw .invalidArgument
  checkCellType V.cell
  kernelDataChecks V
  match t with
  | .meshTieRhs => .ok (poisRhs D (offsets cstrides))
  | .meshTieJac => .ok (poisJac D (offsets cstrides))
  | _ => .error .invalidArgument

/-- `rigid_surface_kernels.cpp:20-48`, `384-392` `generate_rigid_surface_kernel`. -/
def generateRigidKernel (V : SpaceInfo) (t : Kernel) (D : KD) (const : Bool) (junk : ℕ → ℝ) :
    Except KernelErr KernelFn := do
  kernelDataChecks V
  match t with
  | .rhs => .ok (fun c w _ _ => rigidRhs D const junk c w)
  | .jac => .ok (fun c w _ _ => rigidJac D const junk c w)
  | _ => .error .invalidArgument

end

end Verif.Kernels
