import Verif.Model.Scalars

/-!
The UFL forms of `python/dolfinx_contact/one_sided/` and of `helpers.py`.  A form is a sum of integrals;
an integral is the weighted sum over the quadrature points FFCx generates, and an integrand is evaluated
from the values and gradients of the functions at a point.  The quadrature points of all measures are
numbered by one index; weights, cell sizes, facet normals, coordinates and the interpolated gap vector are
data of the points.
-/

namespace Verif.OneSided

open Finset Verif.Scalars

noncomputable section

/-- Value and gradient (`grad i j = ∂ u_i / ∂ x_j`) of a vector field at a point. -/
structure Val where
  val : ℕ → ℝ
  grad : ℕ → ℕ → ℝ

/-- A vector field at the quadrature points. -/
abbrev Field := ℕ → Val

/-- Quadrature points of the measures of the forms and their data: `cells` for `dx`, `contact` for
`ds(bottom_value)` / `ds(contact_value_elastic)`, `dirichlet` for `ds(top_value)` /
`ds(dirichlet_value_elastic)`, `rigid` for `ds(dirichlet_value_rigid)`.  `diam` is `ufl.CellDiameter`,
`circ` is `ufl.Circumradius`, `gap` the value of the interpolated `g_vec` of
`nitsche_rigid_surface.py:250-251`. -/
structure Quad where
  cells : List ℕ
  contact : List ℕ
  dirichlet : List ℕ
  rigid : List ℕ
  wt : ℕ → ℝ
  diam : ℕ → ℝ
  circ : ℕ → ℝ
  n : ℕ → ℕ → ℝ
  x : ℕ → ℕ → ℝ
  gap : ℕ → ℕ → ℝ

/-- Arguments of the drivers: `mesh.geometry.dim`, `physical_parameters`, `nitsche_parameters`,
`plane_loc`, `vertical_displacement`, `nitsche_bc`. -/
structure Params where
  dim : ℕ
  planeStrain : Bool
  E : ℝ
  nu : ℝ
  theta : ℝ
  gamma : ℝ
  planeLoc : ℝ
  disp : ℝ
  nitscheBc : Bool

/-- `mu = mu_func(E, nu)` (`nitsche_ufl.py:109`, `nitsche_rigid_surface.py:104`). -/
def Params.mu (P : Params) : ℝ := lameMu P.E P.nu

/-- `lmbda = lambda_func(E, nu)` (`nitsche_ufl.py:110`, `nitsche_rigid_surface.py:105`). -/
def Params.lmbda (P : Params) : ℝ := lameLambda P.planeStrain P.E P.nu

/-- `ufl.dot`, `ufl.inner` of vectors. -/
def dotV (d : ℕ) (a b : ℕ → ℝ) : ℝ := ∑ i ∈ range d, a i * b i

/-- `ufl.inner` of matrices. -/
def innerM (d : ℕ) (a b : ℕ → ℕ → ℝ) : ℝ := ∑ i ∈ range d, ∑ j ∈ range d, a i j * b i j

/-- `helpers.py:77-78` `epsilon`: `ufl.sym(ufl.grad(v))`. -/
def eps (G : ℕ → ℕ → ℝ) (i j : ℕ) : ℝ := 0.5 * (G i j + G j i)

/-- `helpers.py:81-82` `sigma_func(mu, lmbda)(v)`. -/
def sigma (d : ℕ) (mu lmbda : ℝ) (G : ℕ → ℕ → ℝ) (i j : ℕ) : ℝ :=
  2.0 * mu * eps G i j + lmbda * (∑ k ∈ range d, eps G k k) * (if i = j then 1 else 0)

/-- `sigma(v) * n`. -/
def sigN (d : ℕ) (mu lmbda : ℝ) (G : ℕ → ℕ → ℝ) (n : ℕ → ℝ) (i : ℕ) : ℝ :=
  ∑ j ∈ range d, sigma d mu lmbda G i j * n j

/-- `n_vec`, `n_2` (`nitsche_ufl.py:122-124`, `nitsche_rigid_surface.py:257-259`). -/
def n2 (d i : ℕ) : ℝ := if i = d - 1 then -1 else 0

/-- `sigma_n` (`nitsche_ufl.py:154-156`, `nitsche_rigid_surface.py:262-264`). -/
def sigmaN (P : Params) (n : ℕ → ℝ) (v : Val) : ℝ :=
  dotV P.dim (sigN P.dim P.mu P.lmbda v.grad n) (n2 P.dim)

/-- `disp_vec`, `u_D` (`nitsche_ufl.py:188-190`, `nitsche_custom.py:144-146`,
`nitsche_rigid_surface.py:142-144`, `nitsche_rigid_surface_custom.py:161-163`). -/
def uD (P : Params) (i : ℕ) : ℝ := if i = P.dim - 1 then P.disp else 0

/-- Integral over the quadrature points `ks`. -/
def integral (Q : Quad) (ks : List ℕ) (f : ℕ → ℝ) : ℝ := (ks.map (fun k => Q.wt k * f k)).sum

/-- The two contact integrands of the residual (`nitsche_ufl.py:158-165`,
`nitsche_rigid_surface.py:268-275`), with the scaled parameter `gs` and the gap `g`. -/
def contactF (P : Params) (n : ℕ → ℝ) (gs g : ℝ) (u v : Val) : ℝ :=
  -(P.theta / gs * sigmaN P n u * sigmaN P n v)
    + 1 / gs * pyRMinus (sigmaN P n u + gs * (g - dotV P.dim u.val (n2 P.dim)))
      * (P.theta * sigmaN P n v - gs * dotV P.dim v.val (n2 P.dim))

/-- The two contact integrands of the Jacobian (`nitsche_ufl.py:169-181`,
`nitsche_rigid_surface.py:276-286`). -/
def contactJ (P : Params) (n : ℕ → ℝ) (gs g : ℝ) (u du v : Val) : ℝ :=
  let q := sigmaN P n u + gs * (g - dotV P.dim u.val (n2 P.dim));
  -(P.theta / gs * sigmaN P n du * sigmaN P n v)
    + 1 / gs * 0.5 * (1 - uflSign q) * (sigmaN P n du - gs * dotV P.dim du.val (n2 P.dim))
      * (P.theta * sigmaN P n v - gs * dotV P.dim v.val (n2 P.dim))

/-- Nitsche terms for the Dirichlet condition `u = ud` with penalty `pen` in the residual
(`nitsche_ufl.py:191-195`, `nitsche_custom.py:147-151`, `nitsche_rigid_surface.py:145-149`, `160-164`,
`nitsche_rigid_surface_custom.py:164-168`, `179-183`). -/
def dirichletF (P : Params) (n ud : ℕ → ℝ) (pen : ℝ) (u v : Val) : ℝ :=
  -dotV P.dim (sigN P.dim P.mu P.lmbda u.grad n) v.val
    - P.theta * dotV P.dim (sigN P.dim P.mu P.lmbda v.grad n) (fun i => u.val i - ud i)
    + pen * dotV P.dim (fun i => u.val i - ud i) v.val

/-- The same in the Jacobian (`nitsche_ufl.py:197-201`, `nitsche_custom.py:152-156`,
`nitsche_rigid_surface.py:151-155`, `165-169`, `nitsche_rigid_surface_custom.py:170-174`, `184-188`). -/
def dirichletJ (P : Params) (n : ℕ → ℝ) (pen : ℝ) (du v : Val) : ℝ :=
  -dotV P.dim (sigN P.dim P.mu P.lmbda du.grad n) v.val
    - P.theta * dotV P.dim (sigN P.dim P.mu P.lmbda v.grad n) du.val
    + pen * dotV P.dim du.val v.val

/-- `ufl.inner(sigma(u), epsilon(v))`. -/
def elastic (P : Params) (u v : Val) : ℝ := innerM P.dim (sigma P.dim P.mu P.lmbda u.grad) (eps v.grad)

/-- `gamma_scaled` (`nitsche_ufl.py:127-128`). -/
def uflGamma (P : Params) (Q : Quad) (k : ℕ) : ℝ := P.gamma * P.E / Q.diam k

/-- `nitsche_ufl.py:148-165`, `187-195`: the residual `F`. -/
def uflF (P : Params) (Q : Quad) (u v : Field) : ℝ :=
  integral Q Q.cells (fun k => elastic P (u k) (v k))
    + integral Q Q.contact (fun k => contactF P (Q.n k) (uflGamma P Q k)
        (Q.x k (P.dim - 1) + P.planeLoc) (u k) (v k))
    - integral Q Q.cells (fun k => dotV P.dim (fun _ => 0) (v k).val)
    + if P.nitscheBc then
        integral Q Q.dirichlet (fun k =>
          dirichletF P (Q.n k) (uD P) (uflGamma P Q k / Q.diam k) (u k) (v k))
      else 0

/-- `nitsche_ufl.py:168-181`, `187-201`: the Jacobian `J`. -/
def uflJ (P : Params) (Q : Quad) (u du v : Field) : ℝ :=
  integral Q Q.cells (fun k => elastic P (du k) (v k))
    + integral Q Q.contact (fun k => contactJ P (Q.n k) (uflGamma P Q k)
        (Q.x k (P.dim - 1) + P.planeLoc) (u k) (du k) (v k))
    + if P.nitscheBc then
        integral Q Q.dirichlet (fun k =>
          dirichletJ P (Q.n k) (uflGamma P Q k / Q.diam k) (du k) (v k))
      else 0

/-- `gamma = gamma * E / h` (`nitsche_rigid_surface.py:267`). -/
def rigidGamma (P : Params) (Q : Quad) (k : ℕ) : ℝ := P.gamma * P.E / Q.circ k

/-- `nitsche_rigid_surface.py:137`, `141-164`, `268-275`: the residual `F`. -/
def rigidF (P : Params) (Q : Quad) (u v : Field) : ℝ :=
  integral Q Q.cells (fun k => elastic P (u k) (v k))
    + (if P.nitscheBc then
        integral Q Q.dirichlet (fun k =>
          dirichletF P (Q.n k) (uD P) (P.E * P.gamma / Q.circ k) (u k) (v k))
        + integral Q Q.rigid (fun k =>
          dirichletF P (Q.n k) (fun _ => 0) (P.E * P.gamma / Q.circ k) (u k) (v k))
      else 0)
    + integral Q Q.contact (fun k => contactF P (Q.n k) (rigidGamma P Q k)
        (dotV P.dim (Q.gap k) (n2 P.dim)) (u k) (v k))

/-- `nitsche_rigid_surface.py:136`, `151-169`, `276-286`: the Jacobian `J`. -/
def rigidJ (P : Params) (Q : Quad) (u du v : Field) : ℝ :=
  integral Q Q.cells (fun k => elastic P (du k) (v k))
    + (if P.nitscheBc then
        integral Q Q.dirichlet (fun k =>
          dirichletJ P (Q.n k) (P.E * P.gamma / Q.circ k) (du k) (v k))
        + integral Q Q.rigid (fun k =>
          dirichletJ P (Q.n k) (P.E * P.gamma / Q.circ k) (du k) (v k))
      else 0)
    + integral Q Q.contact (fun k => contactJ P (Q.n k) (rigidGamma P Q k)
        (dotV P.dim (Q.gap k) (n2 P.dim)) (u k) (du k) (v k))

/-- `nitsche_custom.py:136`, `140-151`: the part of the residual of `nitsche_custom` given as a UFL form
(the contact term is the custom kernel); `none` where the function raises. -/
def customF (P : Params) (Q : Quad) (u v : Field) : Option ℝ :=
  if P.nitscheBc then
    some (integral Q Q.cells (fun k => elastic P (u k) (v k))
      + integral Q Q.dirichlet (fun k =>
          dirichletF P (Q.n k) (uD P) (P.E * P.gamma / Q.circ k) (u k) (v k)))
  else none

/-- `nitsche_custom.py:135`, `152-156`. -/
def customJ (P : Params) (Q : Quad) (du v : Field) : Option ℝ :=
  if P.nitscheBc then
    some (integral Q Q.cells (fun k => elastic P (du k) (v k))
      + integral Q Q.dirichlet (fun k =>
          dirichletJ P (Q.n k) (P.E * P.gamma / Q.circ k) (du k) (v k)))
  else none

/-- `helpers.py:351-370` `weak_dirichlet`: the terms added to the form for `sigma = sigma_func(mu, lmbda)`;
`h` is the cell size of `cpp.mesh.h`, given at the points. -/
def weakDirichlet (P : Params) (Q : Quad) (h : ℕ → ℝ) (ks : List ℕ) (f : ℕ → ℕ → ℝ) (F : ℝ) (u v : Field) : ℝ :=
  F + integral Q ks (fun k => dirichletF P (Q.n k) (f k) (P.gamma / h k) (u k) (v k))

end

end Verif.OneSided
