import Mathlib.Data.Real.Basic
import Mathlib.Logic.Function.Basic
import Verif.Model.Dispatch

/-!
`python/dolfinx_contact/general_contact/contact_problem.py`: the class `ContactProblem`, with the
numpy slice assignments it uses and the members of `Contact` it relies on
(`Contact.cpp:182-238` `coefficients_size`, `296-339` `create_distance_map`, `444-452`
`generate_kernel`).

What the C++ packing functions return is an input (they are modelled in `Model/Packing.lean` and
`Model/Coefficients.lean`).  Python exceptions are values that carry the state in which the object is
left.  One function space per problem.
-/

namespace Verif.ContactProblem

noncomputable section

/-- A two-dimensional numpy array. -/
structure Mat where
  rows : ℕ
  cols : ℕ
  v : ℕ → ℕ → ℝ

/-- Python exceptions. -/
inductive Err where
  | runtimeError
  | valueError
  | attributeError
  | indexError
  | typeError
  deriving DecidableEq, Repr

/-- `np.zeros((rows, cols))`. -/
def zeros (rows cols : ℕ) : Mat := ⟨rows, cols, fun _ _ => 0⟩

/-- `m[:r1, c0:c1] = d` (numpy): slice bounds are clipped, the right-hand side is broadcast along axes
of length one, other shape differences raise `ValueError`. -/
def assign (m : Mat) (r1 c0 c1 : ℕ) (d : Mat) : Except Err Mat :=
  let h := min r1 m.rows
  let lo := min c0 m.cols
  let hi := max lo (min c1 m.cols)
  if (d.rows = h ∨ d.rows = 1) ∧ (d.cols = hi - lo ∨ d.cols = 1) then
    .ok ⟨m.rows, m.cols, fun r c =>
      if r < h ∧ lo ≤ c ∧ c < hi then
        d.v (if d.rows = 1 then 0 else r) (if d.cols = 1 then 0 else c - lo)
      else m.v r c⟩
  else .error .valueError

/-- `m[:, j] = d[:, 0]` (numpy). -/
def assignCol (m : Mat) (j : ℕ) (d : Mat) : Except Err Mat :=
  if m.cols ≤ j ∨ d.cols = 0 then .error .indexError
  else if d.rows = m.rows ∨ d.rows = 1 then
    .ok ⟨m.rows, m.cols, fun r c =>
      if r < m.rows ∧ c = j then d.v (if d.rows = 1 then 0 else r) 0 else m.v r c⟩
  else .error .valueError

/-- `m[:, c0:c1]` (numpy). -/
def slice (m : Mat) (c0 c1 : ℕ) : Mat :=
  let lo := min c0 m.cols
  let hi := max lo (min c1 m.cols)
  ⟨m.rows, hi - lo, fun r c => m.v r (lo + c)⟩

/-- `a + b` (numpy) for arrays of equal shape. Simplification: other shapes raise here, numpy would
broadcast axes of length one. -/
def add (a b : Mat) : Except Err Mat :=
  if a.rows = b.rows ∧ a.cols = b.cols then .ok ⟨a.rows, a.cols, fun r c => a.v r c + b.v r c⟩
  else .error .valueError

/-- `-a`. -/
def neg (a : Mat) : Mat := ⟨a.rows, a.cols, fun r c => -a.v r c⟩

/-- What is fixed when the object is created. `G` is the type of deformed geometries of the contact
submesh. `entities i` is `len(self.entities[i])`, `localFacets i` is
`self.local_facets(self.contact_pair(i)[0])`, `gap`, `nx`, `ny`, `test` are what `pack_gap`, `pack_nx`,
`pack_ny` and `pack_test_functions` return for pair `i` when its distance map was computed on the given
geometry. -/
structure Static (G : Type) where
  numPairs : ℕ
  nq : ℕ
  gdim : ℕ
  nd : ℕ
  bs : ℕ
  raytracing : ℕ → Bool
  entities : ℕ → ℕ
  localFacets : ℕ → ℕ
  gap : G → ℕ → Mat
  nx : G → ℕ → Mat
  ny : G → ℕ → Mat
  test : G → ℕ → Mat

/-- `FrictionLaw`. -/
inductive Law where
  | frictionless
  | coulomb
  | tresca
  deriving DecidableEq, Repr

/-- The packed displacement increment: `pack_coefficient_quadrature`, `pack_gradient_quadrature`, and
`pack_u_contact`, which depends on the distance map. -/
structure Du (G : Type) where
  val : ℕ → Mat
  grad : ℕ → Mat
  opp : G → ℕ → Mat

/-- Arguments of `generate_contact_data`: the dictionary `coefficients` after packing (`none`: key
missing), `h` is the packed cell diameter. -/
structure GenArgs (G : Type) where
  law : Law
  mu : Option (ℕ → Mat)
  lam : Option (ℕ → Mat)
  fric : Option (ℕ → Mat)
  u : Option (ℕ → Mat)
  du : Option (Du G)
  h : ℕ → Mat
  gamma : ℝ
  theta : ℝ

/-- The object. `detected i`: the geometry on which the distance map of pair `i` was computed;
`numQ = none`: attribute `_num_q_points` not set (`__slots__`, no default); kernels are recorded with the
`max_links` they captured (`Contact.cpp:444-452`). `coeffs = none` is the empty list. -/
structure State (G : Type) where
  geom : G
  detected : ℕ → G
  maxLinks : ℕ → ℕ
  coeffs : Option (ℕ → Mat)
  numQ : Option (ℕ → ℕ)
  gradU : ℕ → Mat
  consts : ℝ × ℝ
  matKernels : List (Kernels.Kernel × ℕ)
  vecKernels : List (Kernels.Kernel × ℕ)

variable {G : Type}

/-- A method: the new state, or an exception together with the state in which the object is left. -/
abbrev Res (G : Type) := Except (Err × State G) (State G)

/-- `Contact.h:98-101` `max_links()`: the largest entry. -/
def maxLinks (S : Static G) (s : State G) : ℕ :=
  (List.range S.numPairs).foldl (fun m i => max m (s.maxLinks i)) 0

/-- `Contact.cpp:296-339` `create_distance_map(i)`: line 338 sets `_max_links[pair]` to the number of
points of one facet. -/
def createDistanceMap (S : Static G) (i : ℕ) (s : State G) : State G :=
  { s with detected := Function.update s.detected i s.geom, maxLinks := Function.update s.maxLinks i S.nq }

/-- `for i in range(num_pairs): create_distance_map(i)`. -/
def createDistanceMaps (S : Static G) (s : State G) : State G :=
  (List.range S.numPairs).foldl (fun s i => createDistanceMap S i s) s

/-- `Contact.cpp:182-238` `coefficients_size(meshtie, V)`. -/
def coefficientsSize (meshtie : Bool) (nq gdim nd bs ml : ℕ) : ℕ :=
  if meshtie then
    [1, 1, 1, nq * nd * bs * ml, nq * nd * bs * ml, nq * gdim, nq * gdim * gdim, nq * bs, nq * gdim * bs].sum
  else
    [4, nq * bs, nq * bs, nq * nd * bs * ml, nq * gdim, nq * gdim * gdim, nq * bs, nq * gdim, 0].sum

/-- `contact_problem.py:48-108` `__init__`. -/
def init (S : Static G) (g : G) : State G :=
  createDistanceMaps S
    { geom := g, detected := fun _ => g, maxLinks := fun _ => 0, coeffs := none, numQ := none,
      gradU := fun _ => zeros 0 0, consts := (0, 0), matKernels := [], vecKernels := [] }

/-- `contact_problem.py:149-160` `pack_normals(i)`. -/
def packNormals (S : Static G) (s : State G) (i : ℕ) : Mat :=
  if S.raytracing i then neg (S.nx (s.detected i) i) else S.ny (s.detected i) i

/-- Assign to a slice of `self.coeffs[i]`. -/
def setCoeffs (s : State G) (i r1 c0 c1 : ℕ) (d : Mat) : Res G :=
  match s.coeffs with
  | none => .error (.indexError, s)
  | some cs =>
    match assign (cs i) r1 c0 c1 d with
    | .ok m => .ok { s with coeffs := some (Function.update cs i m) }
    | .error e => .error (e, s)

/-- Assign to a column of `self.coeffs[i]`. -/
def setCol (s : State G) (i j : ℕ) (d : Mat) : Res G :=
  match s.coeffs with
  | none => .error (.indexError, s)
  | some cs =>
    match assignCol (cs i) j d with
    | .ok m => .ok { s with coeffs := some (Function.update cs i m) }
    | .error e => .error (e, s)

/-- `for x in l: body(x)`. -/
def forIn {α : Type} : List α → (α → State G → Res G) → State G → Res G
  | [], _, s => .ok s
  | x :: l, body, s => (body x s).bind (forIn l body)

/-- `for i in range(n): body(i)`. -/
def forRange (n : ℕ) (body : ℕ → State G → Res G) : State G → Res G := forIn (List.range n) body

/-- `self._num_q_points[i]`. -/
def withNumQ (s : State G) (i : ℕ) (k : ℕ → Res G) : Res G :=
  match s.numQ with
  | none => .error (.attributeError, s)
  | some f => k (f i)

/-- `contact_problem.py:123-147`: body of the loop over pairs of `update_contact_data`. -/
def updateDataPair (S : Static G) (du : Du G) (ml i : ℕ) (s : State G) : Res G :=
  withNumQ s i fun n =>
    let offset0 := 4 + n * S.gdim * (2 + S.nd * ml)
    let offset1 := offset0 + n * S.gdim
    (setCoeffs s i (S.entities i) offset0 offset1 (du.val i)).bind fun s =>
    let offset0 := offset1
    let offset1 := offset0 + n * S.gdim * S.gdim
    (match add (du.grad i) (s.gradU i) with
      | .ok m => setCoeffs s i (S.entities i) offset0 offset1 m
      | .error e => .error (e, s)).bind fun s =>
    let offset0 := offset1
    let offset1 := offset0 + n * S.gdim
    setCoeffs s i (S.localFacets i) offset0 offset1 (du.opp (s.detected i) i)

/-- `contact_problem.py:111-147` `update_contact_data`. -/
def updateContactData (S : Static G) (du : Du G) (s : State G) : Res G :=
  forRange S.numPairs (updateDataPair S du (maxLinks S s)) s

/-- `contact_problem.py:162-191` `retrieve_material_parameters`: the keys, with their packed values. -/
def retrieve (a : GenArgs G) : Except Err (List (ℕ → Mat)) :=
  match a.mu with
  | none => .error .runtimeError
  | some mu =>
    match a.lam with
    | none => .error .runtimeError
    | some lam =>
      match a.fric with
      | some fric => .ok [mu, lam, fric]
      | none => .ok [mu, lam]

/-- `contact_problem.py:218-236`: the kernels of a friction law. -/
def kernels (law : Law) (ml : ℕ) : List (Kernels.Kernel × ℕ) × List (Kernels.Kernel × ℕ) :=
  match law with
  | .coulomb => ([(.jac, ml), (.coulombJac, ml)], [(.rhs, ml), (.coulombRhs, ml)])
  | .tresca => ([(.jac, ml), (.trescaJac, ml)], [(.rhs, ml), (.trescaRhs, ml)])
  | .frictionless => ([(.jac, ml)], [(.rhs, ml)])

/-- `contact_problem.py:268-276`: distance map and scalars of pair `i`. -/
def genScalars (S : Static G) (keys : List (ℕ → Mat)) (h : ℕ → Mat) (i : ℕ) (s : State G) : Res G :=
  (forIn keys.zipIdx (fun kj s => setCol s i kj.2 (kj.1 i)) (createDistanceMap S i s)).bind fun s =>
    setCol s i 3 (h i)

/-- `contact_problem.py:283-300`: gap, normals and test functions of pair `i`. `_num_q_points` starts as
the empty list (279) and gets the number of points appended. -/
def genGeometry (S : Static G) (newModel : Bool) (ml i : ℕ) (s : State G) : Res G :=
  let normals := packNormals S s i
  let n := normals.cols / S.gdim
  let s := { s with numQ := s.numQ.map (fun f => Function.update f i n) }
  let offset1 := 4 + n * S.gdim
  (setCoeffs s i (S.localFacets i) 4 offset1 (S.gap (s.detected i) i)).bind fun s =>
  let offset0 := offset1
  let offset1 := offset0 + n * S.gdim
  (setCoeffs s i (S.localFacets i) offset0 offset1 normals).bind fun s =>
  let offset0 := offset1
  let offset1 := offset0 + n * S.gdim * ml * S.nd
  (setCoeffs s i (S.localFacets i) offset0 offset1 (S.test (s.detected i) i)).bind fun s =>
  if newModel then
    match s.coeffs with
    | none => .error (.indexError, s)
    | some cs =>
      -- `[-k:]` with `k` columns of normals; `-0:` is the whole row
      let k := normals.cols
      setCoeffs s i (S.localFacets i) (if k = 0 then 0 else (cs i).cols - k) (cs i).cols normals
  else .ok s

/-- `contact_problem.py:306-311`: the gradient of the displacement so far, zero if none is given. -/
def packGradU (S : Static G) (u : Option (ℕ → Mat)) (s : State G) : Res G :=
  let s := { s with gradU := fun i => zeros (S.entities i) ((s.numQ.getD (fun _ => 0)) i * S.gdim * S.gdim) }
  match u with
  | none => .ok s
  | some u => forRange S.numPairs (fun i s =>
      match assign (s.gradU i) (S.entities i) 0 (s.gradU i).cols (u i) with
      | .ok m => .ok { s with gradU := Function.update s.gradU i m }
      | .error e => .error (e, s)) s

/-- `contact_problem.py:244-320`: the part of `generate_contact_data` after the keys were found. -/
def fill (S : Static G) (a : GenArgs G) (keys : List (ℕ → Mat)) (s : State G) : Res G :=
  -- 244-265
  let size := coefficientsSize false S.nq S.gdim S.nd S.bs (maxLinks S s)
  let newModel := s.coeffs.isNone
  let s := if newModel then { s with coeffs := some (fun i => zeros (S.entities i) size) } else s
  (forRange S.numPairs (genScalars S keys a.h) s).bind fun s =>
  let ml := maxLinks S s
  (forRange S.numPairs (genGeometry S newModel ml) { s with numQ := some (fun _ => 0) }).bind fun s =>
  (packGradU S a.u s).bind fun s =>
  match a.du with
  | none => .ok s
  | some du => updateContactData S du s

/-- `contact_problem.py:193-320` `generate_contact_data`. -/
def generate (S : Static G) (a : GenArgs G) (s : State G) : Res G :=
  -- 218-239
  let ks := kernels a.law (maxLinks S s)
  let s := { s with matKernels := ks.1, vecKernels := ks.2, consts := (a.gamma, a.theta) }
  match retrieve a with
  | .error e => .error (e, s)
  | .ok keys => fill S a keys s

/-- `contact_problem.py:338-346`: save the normals of the previous detection. `offsetn:` runs to the
end of the row. -/
def saveNormals (S : Static G) (ml i : ℕ) (s : State G) : Res G :=
  withNumQ s i fun n =>
    let offsetn := 4 + n * S.gdim * (2 + S.nd * ml) + n * S.gdim * (2 + S.gdim)
    let offset0 := 4 + n * S.gdim
    let offset1 := offset0 + n * S.gdim
    match s.coeffs with
    | none => .error (.indexError, s)
    | some cs => setCoeffs s i (S.entities i) offsetn (cs i).cols (slice (cs i) offset0 offset1)

/-- `contact_problem.py:350-362`. -/
def repack (S : Static G) (ml i : ℕ) (s : State G) : Res G :=
  withNumQ s i fun n =>
    let offset1 := 4 + n * S.gdim
    (setCoeffs s i (S.localFacets i) 4 offset1 (S.gap (s.detected i) i)).bind fun s =>
    let offset0 := offset1
    let offset1 := offset0 + n * S.gdim
    (setCoeffs s i (S.localFacets i) offset0 offset1 (packNormals S s i)).bind fun s =>
    let offset0 := offset1
    let offset1 := offset0 + n * S.gdim * ml * S.nd
    setCoeffs s i (S.localFacets i) offset0 offset1 (S.test (s.detected i) i)

/-- `contact_problem.py:322-372` `update_contact_detection(u)`; `move` is the effect of
`update_submesh_geometry(u)` on the geometry, `gradU` the packed gradient of `u`. -/
def updateDetection (S : Static G) (move : G → G) (gradU : ℕ → Mat) (s : State G) : Res G :=
  let s := createDistanceMaps S { s with geom := move s.geom }
  let ml := maxLinks S s
  (forRange S.numPairs (saveNormals S ml) s).bind fun s =>
  (forRange S.numPairs (repack S ml) s).bind fun s =>
  .ok { s with gradU := gradU }

/-- `contact_problem.py:374-383` `update_nitsche_parameters`. (`_consts` is unset before the first
`generate_contact_data`.) -/
def updateNitsche (gamma theta : ℝ) (s : State G) : Res G :=
  if s.vecKernels = [] then .error (.attributeError, s) else .ok { s with consts := (gamma, theta) }

/-- `contact_problem.py:385-392` `h_surfaces()`: mean of the fourth column (over an empty list of rows the
quotient is nan in the code, 0 here). -/
def hSurfaces (S : Static G) (s : State G) : List ℝ :=
  match s.coeffs with
  | none => []
  | some cs => (List.range S.numPairs).map (fun i =>
      ((List.range (cs i).rows).map (fun r => (cs i).v r 3)).sum / (cs i).rows)

/-- `wrappers.cpp:339-348`: the binding of `crop_invalid_points` accepts one-dimensional arrays; the
arguments are the numbers of dimensions. -/
def cropBinding (ndimGap ndimNormal : ℕ) : Except Err Unit :=
  if ndimGap = 1 ∧ ndimNormal = 1 then .ok () else .error .typeError

/-- `contact_problem.py:450-465` `crop_invalid_points(tol)`: basic slices `a[:, i:j]` of a two-dimensional
array are two-dimensional. Only the argument check of the first call matters. -/
def cropInvalidPoints (S : Static G) (s : State G) : Except Err Unit :=
  match s.numQ with
  | none => if S.numPairs = 0 then .ok () else .error .attributeError
  | some _ => (List.range S.numPairs).foldlM (fun _ _ => cropBinding 2 2) ()

/-- Calls of the public methods that change the object. -/
inductive Op (G : Type) where
  | generate (a : GenArgs G)
  | updateData (du : Du G)
  | updateDetection (move : G → G) (gradU : ℕ → Mat)
  | updateNitsche (gamma theta : ℝ)

/-- One call. -/
def call (S : Static G) : Op G → State G → Res G
  | .generate a, s => generate S a s
  | .updateData du, s => updateContactData S du s
  | .updateDetection move gradU, s => updateDetection S move gradU s
  | .updateNitsche gamma theta, s => updateNitsche gamma theta s

/-- The object after a call, whether it raised or not. -/
def after (r : Res G) : State G :=
  match r with
  | .ok s => s
  | .error e => e.2

/-- The object after a sequence of calls; exceptions are caught by the user, who goes on. -/
def history (S : Static G) (ops : List (Op G)) (s : State G) : State G :=
  ops.foldl (fun s op => after (call S op s)) s

end

end Verif.ContactProblem
