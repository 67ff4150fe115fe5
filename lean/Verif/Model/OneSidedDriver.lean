import Verif.Model.Driver
import Verif.Model.OneSided

/-!
The drivers `python/dolfinx_contact/one_sided/nitsche_custom.py` and `nitsche_rigid_surface_custom.py`, from the
packed coefficients to the returned displacement.

Not modelled: logging, timers, near null space, Krylov options, ghost values (one process).
-/

namespace Verif.OneSidedDriver

open Verif.ContactProblem Verif.Coefficients Verif.OneSided

noncomputable section

/-- `np.hstack((a, b))` of two-dimensional arrays. -/
def hstack2 (a b : Mat) : Except Err Mat :=
  if a.rows = b.rows then
    .ok ⟨a.rows, a.cols + b.cols, fun r c => if c < a.cols then a.v r c else b.v r (c - a.cols)⟩
  else .error .valueError

/-- `np.hstack(l)`. -/
def hstack : List Mat → Except Err Mat
  | [] => .error .valueError
  | [a] => .ok a
  | a :: l =>
    match hstack l with
    | .ok b => hstack2 a b
    | .error e => .error e

/-- Data of a driver.  `Y` is the mesh, the displacement space and the one contact pair (its facets are those
marked for contact; `gap` and `ny` are what `pack_gap(0)` and `pack_ny(0)` return), `P` the parameters, `size` the
cell size used (circumradius or diameter of a cell), `qp` the coordinates of the quadrature points of the contact
facets, `bulk`, `stiff` the vector of the form `F` and the matrix of `J` (UFL part, see `OneSided.customF`), `junk`
the uninitialised memory of a kernel, `linSolve` the Krylov solver. -/
structure Data where
  Y : System Unit
  P : Params
  size : ℕ → ℝ
  qp : ℕ → ℝ
  bulk : (ℕ → ℝ) → ℕ → ℝ
  stiff : (ℕ → ℝ) → ℕ → ℕ → ℝ
  junk : ℕ → ℝ
  numDofs : ℕ
  linSolve : (ℕ × ℕ → ℝ) → (ℕ → ℝ) → (ℕ → ℝ) → (ℕ → ℝ) × ℕ × ℤ

/-- `integral_entities[:num_local, :]` (`nitsche_custom.py:180-183`, `nitsche_rigid_surface_custom.py:211-215`): the
same system with the owned facets only. -/
def owned (Y : System Unit) : System Unit := { Y with facets := fun i => (Y.facets i).take (Y.localFacets i) }

/-- `pack_coefficient_quadrature(f, 0, integral_entities)` for a DG-0 function with value `f c` on cell `c`
(`nitsche_custom.py:171-175`, `185-190`, `nitsche_rigid_surface_custom.py:203-207`, `218-229`; a rule of degree 0 has
one point). -/
def packDG0 (Y : System Unit) (f : ℕ → ℝ) : Mat :=
  match packCoefficient ⟨1, 1, 1, 1, fun c _ => c, f⟩ .exteriorFacet ((owned Y).entities 0) 1 (fun _ => 0)
      (fun _ _ _ => 1) false Y.affine (fun _ _ U => U) with
  | .ok c => toMat ((owned Y).facets 0).length c.2 c.1
  | .error _ => zeros 0 0

/-- `dolfinx_contact.pack_circumradius(mesh, integral_entities)` (`nitsche_custom.py:192`; `pack_circumradius` is
`Geometry.packCircumradius`).  Simplification: the circumradius of a cell is data. -/
def packSize (D : Data) : Mat :=
  ⟨((owned D.Y).facets 0).length, 1, fun e _ => D.size (((owned D.Y).facets 0).getD e (0, 0)).1⟩

/-- `contact.pack_gap_plane(0, -plane_loc)` (`nitsche_custom.py:210`). -/
def packPlane (D : Data) : Mat :=
  toMat (D.Y.localFacets 0) (D.Y.nq * D.Y.gdim)
    (Packing.packGapPlane (D.Y.localFacets 0) D.Y.nq D.Y.gdim D.qp (-D.P.planeLoc))

/-- `nitsche_custom.py:185-213`: the coefficients which do not depend on the displacement. -/
def planeCoeffs (D : Data) : Except Err Mat :=
  match hstack [packDG0 D.Y (fun _ => D.P.mu), packDG0 D.Y (fun _ => D.P.lmbda)] with
  | .error e => .error e
  | .ok coeffs => hstack [coeffs, packSize D, packPlane D]

/-- `nitsche_custom.py:233-237`, `251-255`: `c = np.hstack([coeffs, u_packed, grad_u_packed])`. -/
def planeRows (D : Data) (x : ℕ → ℝ) : Except Err Mat :=
  match planeCoeffs D with
  | .error e => .error e
  | .ok coeffs => hstack [coeffs, (owned D.Y).packVal x 0, (owned D.Y).packGrad x 0]

/-- `nitsche_custom.py:122-123`, `167-168`: `consts = np.hstack(([E * gamma, theta], n_vec))`. -/
def planeConsts (D : Data) (n : ℕ) : ℝ :=
  if n = 0 then D.P.E * D.P.gamma else if n = 1 then D.P.theta else if n - 2 = D.Y.gdim - 1 then 1 else 0

/-- `nitsche_rigid_surface_custom.py:200`: `consts = np.array([gamma * E, theta])`. -/
def surfaceConsts (D : Data) (n : ℕ) : ℝ := if n = 0 then D.P.gamma * D.P.E else D.P.theta

/-- A kernel of `generate_rigid_surface_kernel(V, t, q_rule, constant_normal)` with constants `w`
(`nitsche_custom.py:217`, `245`, `nitsche_rigid_surface_custom.py:252`, `256`).  Simplification: a kernel that could not
be generated does nothing here; in the code the driver has raised. -/
def kernel (D : Data) (const : Bool) (w : ℕ → ℝ) (t : Kernels.Kernel) : Assembly.Kern :=
  fun row cell f links qs A =>
    match Kernels.generateRigidKernel ⟨D.Y.cell, D.Y.gdim, D.Y.gdim, false⟩ t (D.Y.kd 0 cell f) const D.junk with
    | .ok fn => fn row w links qs A
    | .error _ => A

/-- The object `contact_assembler` (`nitsche_custom.py:220-227`, `nitsche_rigid_surface_custom.py:259-266`):
`create_distance_map` is never called for it, so that there is no contact map and all `_max_links` are 0. -/
def assembler (Y : System Unit) : Assembly.Pair where
  facets := fun e => (Y.facets 0).getD e (0, 0)
  numLocal := Y.localFacets 0
  map := fun _ => []
  s2p := Y.subCell
  pc := Y.space.parentCell
  maxLinks := 0
  nd := Y.nd
  bs := Y.gdim
  dofs := Y.space.parent
  transforms := false

/-- `contact_assembler.assemble_vector(b, 0, kernel_rhs, c, consts, V)` on a zero vector. Simplification: zero if it
raises (never, C176). -/
def contactVector (D : Data) (const : Bool) (w : ℕ → ℝ) (c : Mat) : Arr ℕ :=
  match Assembly.assembleVector (assembler D.Y) (kernel D const w .rhs) (flat c) c.cols 0 with
  | .ok b => b
  | .error _ => 0

/-- `contact_assembler.assemble_matrix(A, 0, kernel_j, c, consts, V)` on a zero matrix. -/
def contactMatrix (D : Data) (const : Bool) (w : ℕ → ℝ) (c : Mat) : Arr (ℕ × ℕ) :=
  match Assembly.assembleMatrix (Assembly.addValues D.Y.gdim) (assembler D.Y) (kernel D const w .jac) (flat c) c.cols 0 with
  | .ok A => A
  | .error _ => 0

/-- `nitsche_custom.py:229-241` `assemble_residual`. Simplification: if the rows cannot be stacked (never, C176) there
is no contact vector. -/
def planeResidual (D : Data) (x : ℕ → ℝ) (_ : Unit) : ℕ → ℝ :=
  match planeRows D x with
  | .error _ => D.bulk x
  | .ok c =>
    let b := contactVector D true (planeConsts D) c
    fun d => b d + D.bulk x d

/-- `nitsche_custom.py:247-259` `assemble_jacobian`. -/
def planeJacobian (D : Data) (x : ℕ → ℝ) (_ : Unit) : ℕ × ℕ → ℝ :=
  match planeRows D x with
  | .error _ => fun dc => D.stiff x dc.1 dc.2
  | .ok c =>
    let A := contactMatrix D true (planeConsts D) c
    fun dc => A dc + D.stiff x dc.1 dc.2

/-- `nitsche_custom.py:262-270`: what the Newton solver gets; `update_cf` does nothing. -/
def planeProblem (D : Data) : Newton.Problem (ℕ → ℝ) (ℕ → ℝ) (ℕ × ℕ → ℝ) Unit where
  coefficients := fun _ c => c
  residual := planeResidual D
  jacobian := planeJacobian D
  linSolve := D.linSolve
  normB := norm2 D.numDofs
  normV := norm2 D.numDofs
  pre := fun x => x
  post := fun x => x

/-- Exceptions of the drivers. -/
inductive DriverErr where
  | runtimeError
  | unboundLocalError
  | assertionError
  | data (e : Err)
  | newton (e : Newton.Err)

/-- The end of both drivers (`nitsche_custom.py:291-299`, `nitsche_rigid_surface_custom.py:343-353`): solve, assert
convergence if the solver is to raise on failure, return the displacement. -/
def finish {C : Type} (pb : Newton.Problem (ℕ → ℝ) (ℕ → ℝ) (ℕ × ℕ → ℝ) C) (rank0 : Bool)
    (s : Newton.St (ℕ → ℝ) (ℕ → ℝ) C) : Except DriverErr (ℕ × Bool × (ℕ → ℝ)) :=
  match Newton.solve pb rank0 .function s with
  | (_, .error e) => .error (.newton e)
  | (s, .ok (n, conv)) =>
    if s.opts.errorOnNonconvergence = true ∧ conv = false then .error .assertionError else .ok (n, conv, s.x)

/-- The solver after its construction and `set_newton_options` (`nitsche_custom.py:267-272`,
`nitsche_rigid_surface_custom.py:313-330`). -/
def configure {C : Type} (x : ℕ → ℝ) (c : C) (opts : Newton.OptDict) :
    Newton.St (ℕ → ℝ) (ℕ → ℝ) C × Option Newton.Err :=
  Newton.setNewtonOptions (Newton.St.init x c (fun _ => 0)) opts

/-- `nitsche_custom.py:278-284`: the initial guess. -/
def planeStart (D : Data) (d : ℕ) : ℝ := if d % D.Y.gdim = D.Y.gdim - 1 then -0.01 - D.P.planeLoc else 0

/-- `nitsche_custom.py:36-299` `nitsche_custom`: number of iterations, convergence, displacement. -/
def nitscheCustom (D : Data) (rank0 : Bool) (opts : Newton.OptDict) : Except DriverErr (ℕ × Bool × (ℕ → ℝ)) :=
  if D.P.nitscheBc then
    match planeCoeffs D with
    | .error e => .error (.data e)
    | .ok _ =>
      match configure (planeStart D) () opts with
      | (_, some e) => .error (.newton e)
      | (s, none) => finish (planeProblem D) rank0 s
  else .error .runtimeError

/-! ### nitsche_rigid_surface_custom -/

/-- `offset` (`nitsche_rigid_surface_custom.py:272`): `coeffs.shape[1] + h_facets.shape[1] + g_vec.shape[1]`. -/
def surfaceOffset (D : Data) : ℕ :=
  ((packDG0 D.Y (fun _ => D.P.mu)).cols + (packDG0 D.Y (fun _ => D.P.lmbda)).cols) + (packDG0 D.Y D.size).cols
    + (D.Y.gap () 0).cols

/-- `nitsche_rigid_surface_custom.py:218-223`, `312`: the array given to the solver; `u` is zero when it is packed. -/
def surfaceRows (D : Data) : Except Err Mat :=
  match hstack [packDG0 D.Y (fun _ => D.P.mu), packDG0 D.Y (fun _ => D.P.lmbda)] with
  | .error e => .error e
  | .ok coeffs => hstack [coeffs, packDG0 D.Y D.size, D.Y.gap () 0, (owned D.Y).packVal (fun _ => 0) 0,
      (owned D.Y).packGrad (fun _ => 0) 0, D.Y.ny () 0]

/-- `nitsche_rigid_surface_custom.py:274-288` `pack_coefficients`: overwrites the columns of the displacement and its
gradient. Simplification: if an assignment raises (never, C177) the array is left as it is. -/
def surfaceUpdate (D : Data) (x : ℕ → ℝ) (c : Mat) : Mat :=
  let u := (owned D.Y).packVal x 0
  let grad := (owned D.Y).packGrad x 0
  let offset := surfaceOffset D
  match assign c c.rows offset (offset + u.cols) u with
  | .error _ => c
  | .ok c =>
    match assign c c.rows (offset + u.cols) (offset + u.cols + grad.cols) grad with
    | .error _ => c
    | .ok c => c

/-- `nitsche_rigid_surface_custom.py:290-297` `compute_residual`. -/
def surfaceResidual (D : Data) (x : ℕ → ℝ) (c : Mat) : ℕ → ℝ :=
  let b := contactVector D false (surfaceConsts D) c
  fun d => b d + D.bulk x d

/-- `nitsche_rigid_surface_custom.py:299-306` `compute_jacobian`. -/
def surfaceJacobian (D : Data) (x : ℕ → ℝ) (c : Mat) : ℕ × ℕ → ℝ :=
  let A := contactMatrix D false (surfaceConsts D) c
  fun dc => A dc + D.stiff x dc.1 dc.2

/-- `nitsche_rigid_surface_custom.py:313-316`. -/
def surfaceProblem (D : Data) : Newton.Problem (ℕ → ℝ) (ℕ → ℝ) (ℕ × ℕ → ℝ) Mat where
  coefficients := surfaceUpdate D
  residual := surfaceResidual D
  jacobian := surfaceJacobian D
  linSolve := D.linSolve
  normB := norm2 D.numDofs
  normV := norm2 D.numDofs
  pre := fun x => x
  post := fun x => x

/-- `nitsche_rigid_surface_custom.py:333-338`: the initial guess. -/
def surfaceStart (D : Data) (d : ℕ) : ℝ := if d % D.Y.gdim = D.Y.gdim - 1 then -D.P.disp else 0

/-- `nitsche_rigid_surface_custom.py:38-353` `nitsche_rigid_surface_custom`; without `nitsche_bc` the variable `h` of
line 228 has no value. -/
def nitscheRigidSurfaceCustom (D : Data) (rank0 : Bool) (opts : Newton.OptDict) :
    Except DriverErr (ℕ × Bool × (ℕ → ℝ)) :=
  if D.P.nitscheBc then
    match surfaceRows D with
    | .error e => .error (.data e)
    | .ok c =>
      match configure (surfaceStart D) c opts with
      | (_, some e) => .error (.newton e)
      | (s, none) => finish (surfaceProblem D) rank0 s
  else .error .unboundLocalError

end

end Verif.OneSidedDriver
