import Mathlib.Algebra.BigOperators.Group.Finset.Basic
import Mathlib.Analysis.Real.Sqrt
import Verif.Lib.Sort
import Verif.Model.ContactProblem
import Verif.Model.Elasticity
import Verif.Model.Packing

/-!
`python/dolfinx_contact/output.py`: `ContactWriter`.  The finite element spaces on the facet mesh, the
projection onto them (`assemble_matrix`, `KSP`) and the file writer are library code and not modelled;
the model ends with the values of the quadrature functions `pn`, `pt` that are projected, and with the
geometry the file writer sees.
-/

namespace Verif.Output

open Finset Verif.ContactProblem

noncomputable section

/-! ### `__init__` -/

/-- `output.py:63-68`: `facet_list[j]`, the mesh facets of the entities of a pair. -/
def facetList (c2f : ℕ → List ℕ) (entities : List (ℕ × ℕ)) : List ℕ :=
  entities.map (fun e => (c2f e.1).getD e.2 0)

/-- `output.py:69`: `np.unique(np.sort(np.hstack(...)))`. -/
def facets (lists : List (List ℕ)) : List ℕ :=
  uniqueAdj (stableSort (fun f : ℕ => (f : ℤ)) lists.flatten)

/-- `output.py:78-80`: `msh_to_fm`, where `fm` is the map `fm_to_msh` returned by `create_submesh`. -/
def mshToFm (fm : List ℕ) : ℕ → ℤ :=
  fm.zipIdx.foldl (fun a p => Function.update a p.1 (p.2 : ℤ)) (fun _ => -1)

/-! ### `write` -/

/-- What `write` reads for a pair: `contact.entities[i]`, whether the pair uses ray tracing,
`pack_gradient_quadrature` (flat) and `material[i]`. -/
structure PairIn where
  entities : List (ℕ × ℕ)
  ray : Bool
  gradU : ℕ → ℝ
  material : Mat

/-- The contact object as `write` sees it: `pack_nx(i)` for a geometry of the contact submesh, and
`pack_ny(i)` for the geometry on which the distance map was computed and the current one; `reset` is
`update_submesh_geometry` with the zero function. -/
structure Source (G : Type) where
  gdim : ℕ
  pairs : List PairIn
  nx : G → ℕ → Mat
  ny : G → G → ℕ → Mat
  reset : G → G

/-- `a.reshape(-1)` (numpy, row major). -/
def flat (m : Mat) (k : ℕ) : ℝ := m.v (k / m.cols) (k % m.cols)

/-- `output.py:153-158`: contact normal of pair `i`. -/
def contactNormal {G : Type} (S : Source G) (s : State G) (i : ℕ) (p : PairIn) : Mat :=
  if p.ray then neg (S.nx s.geom i) else S.ny (s.detected i) s.geom i

/-- `wrappers.cpp:616-625`: the binding of `compute_contact_forces` accepts one-dimensional arrays; the
first two arguments are the numbers of dimensions of `grad_u` and `n_x`. -/
def contactForcesBinding (ndimGrad ndimNx : ℕ) (gradU nx : ℕ → ℝ) (nq nf gdim : ℕ) (mu lmbda : ℝ) :
    Except Err (Arr ℕ) :=
  if ndimGrad = 1 ∧ ndimNx = 1 then .ok (Elasticity.contactForces gradU nx nq nf gdim mu lmbda)
  else .error .typeError

/-- `output.py:186-191`: normal and tangential part of the tractions `sign` at the `nf * nq` points of a
pair.  `reshape` raises if the sizes do not match. -/
def split (gdim nf nq : ℕ) (sign : Arr ℕ) (normal : Mat) : Except Err ((ℕ → ℝ) × (ℕ → ℝ)) :=
  if normal.rows * normal.cols = nf * nq * gdim then
    let pn := fun k => ∑ j ∈ range gdim, sign (k * gdim + j) * flat normal (k * gdim + j)
    .ok (pn, fun k => Real.sqrt (∑ j ∈ range gdim,
      (sign (k * gdim + j) - flat normal (k * gdim + j) * pn k) ^ 2))
  else .error .valueError

/-- `output.py:166-193`: body of the loop over the pairs; `n_x` and `grad_u` have `ndim` dimensions (two in
the code: `n_x.shape[1]`, `wrappers.cpp:300-307`, `454-477`). -/
def pairForces {G : Type} (ndim : ℕ) (S : Source G) (g0 : G) (normal : Mat) (i : ℕ) (p : PairIn) :
    Except Err ((ℕ → ℝ) × (ℕ → ℝ)) :=
  let nx := S.nx g0 i
  let nf := p.entities.length
  let nq := nx.cols / S.gdim
  -- `self.material[i][0, 0]`, `self.material[i][0, 1]`
  if p.material.rows = 0 ∨ p.material.cols < 2 then .error .indexError
  else (contactForcesBinding ndim ndim p.gradU (flat nx) nq nf S.gdim (p.material.v 0 0)
      (p.material.v 0 1)).bind fun sign =>
    split S.gdim nf nq sign normal

/-- `for i in range(...)`, collecting the results. -/
def collect {α β : Type} (f : ℕ → α → Except Err β) : ℕ → List α → Except Err (List β)
  | _, [] => .ok []
  | i, a :: l => (f i a).bind fun b => (collect f (i + 1) l).bind fun bs => .ok (b :: bs)

/-- `output.py:197-207`: quadrature dofs of the facets of a pair (`msh_to_fm` is not negative for a contact
facet, see `C108_facets`). -/
def dofs (m : ℕ → ℤ) (nq : ℕ) (fl : List ℕ) : List ℕ :=
  fl.flatMap (fun f => (List.range nq).map (fun q => (m f).toNat * nq + q))

/-- `a[dofs] = values` (numpy). -/
def scatter (ds : List ℕ) (values : ℕ → ℝ) (a : ℕ → ℝ) : ℕ → ℝ :=
  ds.zipIdx.foldl (fun a p => Function.update a p.1 (values p.2)) a

/-- `output.py:196-209`: the loop that stores the forces.  `np.hstack([])` raises `ValueError`, and so does an
assignment with the wrong number of values. -/
def storeLoop (m : ℕ → ℤ) (gdim nq : ℕ) (g0nx : ℕ → Mat) (c2f : ℕ → List ℕ) :
    ℕ → List (PairIn × ((ℕ → ℝ) × (ℕ → ℝ))) → (ℕ → ℝ) × (ℕ → ℝ) → Except Err ((ℕ → ℝ) × (ℕ → ℝ))
  | _, [], st => .ok st
  | i, (p, pn, pt) :: l, st =>
    let ds := dofs m nq (facetList c2f p.entities)
    if p.entities = [] then .error .valueError
    else if ds.length ≠ p.entities.length * ((g0nx i).cols / gdim) then .error .valueError
    else storeLoop m gdim nq g0nx c2f (i + 1) l (scatter ds pn st.1, scatter ds pt st.2)

/-- Python exceptions of `write`: those of `ContactProblem` and `ZeroDivisionError`. -/
inductive WErr where
  | py (e : Err)
  | zeroDivision
  deriving DecidableEq

/-- `output.py:195-209` `num_q_points = len(forces[0][0]) / len(self.contact.entities[0])` and the loop. -/
def store (m : ℕ → ℤ) (gdim : ℕ) (g0nx : ℕ → Mat) (c2f : ℕ → List ℕ)
    (forces : List (PairIn × ((ℕ → ℝ) × (ℕ → ℝ)))) (st : (ℕ → ℝ) × (ℕ → ℝ)) :
    Except WErr ((ℕ → ℝ) × (ℕ → ℝ)) :=
  match forces with
  | [] => .error (.py .indexError)
  | (p, _) :: _ =>
    if p.entities.length = 0 then .error .zeroDivision
    else
      let nq := p.entities.length * ((g0nx 0).cols / gdim) / p.entities.length
      (storeLoop m gdim nq g0nx c2f 0 forces st).mapError .py

/-- `output.py:151-209`: the part of `write` before the projection.  Returns the new values of the
quadrature functions `pn`, `pt`, or the exception, and the state in which the contact object is left. -/
def write {G : Type} (ndim : ℕ) (S : Source G) (c2f : ℕ → List ℕ) (fm : List ℕ) (s : State G)
    (st : (ℕ → ℝ) × (ℕ → ℝ)) : Except WErr ((ℕ → ℝ) × (ℕ → ℝ)) × State G :=
  let s' := { s with geom := S.reset s.geom }
  let forces := collect (fun i p => pairForces ndim S s'.geom (contactNormal S s i p) i p) 0 S.pairs
  match forces with
  | .error e => (.error (.py e), s')
  | .ok forces => (store (mshToFm fm) S.gdim (S.nx s'.geom) c2f (S.pairs.zip forces) st, s')

/-! ### Geometry of the output -/

/-- `output.py:135-146` `project`: for every pair the component `xi` of the nodes of its facets is set to
`vali`.  `nodes f` are the geometry dofs of facet `f` of the facet mesh; the geometry has three components
per node. -/
def project (m : ℕ → ℤ) (nodes : ℕ → List ℕ) (pairs : List (List ℕ × ℕ × ℝ)) (x : ℕ → ℕ → ℝ) :
    ℕ → ℕ → ℝ :=
  pairs.foldl (fun x p =>
    let fgeom := p.1.flatMap (fun f => nodes (m f).toNat)
    fun n k => if n ∈ fgeom ∧ k = p.2.1 then p.2.2 else x n k) x

/-- `output.py:148-149` `restore`: every entry of the geometry, which has `n` nodes, is overwritten. -/
def restore (n : ℕ) (geom x : ℕ → ℕ → ℝ) : ℕ → ℕ → ℝ :=
  fun m k => if m < n ∧ k < 3 then geom m k else x m k

/-- `output.py:238-241`: copy of the geometry, `project`, `vtx.write`, `restore`.  Returns the geometry the
file writer sees and the geometry afterwards. -/
def writeGeometry (n : ℕ) (m : ℕ → ℤ) (nodes : ℕ → List ℕ) (pairs : List (List ℕ × ℕ × ℝ)) (x : ℕ → ℕ → ℝ) :
    (ℕ → ℕ → ℝ) × (ℕ → ℕ → ℝ) :=
  let geom := x
  let x := project m nodes pairs x
  let seen := x
  (seen, restore n geom x)

/-! ### `qp_phys` -/

/-- Points stored by surface (`_qp_phys`); `none`: never filled (the vector is empty). -/
abbrev Stored := ℕ → Option (Arr ℕ)

/-- `Contact.cpp:454-471` `create_q_phys(surface)`; `facets surface` are the (submesh cell, local facet) pairs of
the surface, `off` and `phi` the offsets of the quadrature rule and the coordinate basis at its points. -/
def createQPhys (X : Packing.GeomData) (nq gdim : ℕ) (off : ℕ → ℕ) (phi : ℕ → ℕ → ℝ)
    (facets : ℕ → List (ℕ × ℕ)) (surface : ℕ) (st : Stored) : Stored :=
  Function.update st surface
    (some (Packing.physicalPoints X nq gdim off phi (facets surface) ((st surface).getD (fun _ => 0))))

/-- `contact_problem.py:88-90`, `331-332`: `create_distance_map` for every pair, which ends with
`create_q_phys(quadrature_mt)` (`Contact.cpp:335`). -/
def detectAll (X : Packing.GeomData) (nq gdim : ℕ) (off : ℕ → ℕ) (phi : ℕ → ℕ → ℝ)
    (facets : ℕ → List (ℕ × ℕ)) (pairs : List (ℕ × ℕ)) (st : Stored) : Stored :=
  pairs.foldl (fun st p => createQPhys X nq gdim off phi facets p.1 st) st

/-- `Contact.cpp:172-181`, `wrappers.cpp:159-174` `qp_phys(i, facet)`: entry `(q, j)` of the result; reading an
empty vector is undefined (`none`). -/
def qpPhys (nq gdim : ℕ) (st : Stored) (i facet q j : ℕ) : Option ℝ :=
  (st i).map (fun a => a ((facet * nq + q) * gdim + j))

end

end Verif.Output
