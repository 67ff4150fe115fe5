import Verif.Lemmas.OneSided
import Verif.Props.RigidKernels
import Verif.Props.Packing

/-! Properties C101 to C104: the UFL forms of the one-sided drivers. -/

namespace Verif.OneSided

open Finset Verif.Scalars Spec

noncomputable section

/-! ### C101 -/

theorem ufl_derivative (P : Params) (hd : 0 < P.dim) (Q : Quad) (u w v : Field)
    (hq : ∀ k ∈ Q.contact, approach P.dim (traction P.dim P.mu P.lmbda (u k).grad (Q.n k))
      + P.gamma * P.E / Q.diam k * (Q.x k (P.dim - 1) + P.planeLoc - approach P.dim (u k).val) ≠ 0) :
    HasDerivAt (fun t => uflF P Q (line u w t) v) (uflJ P Q u w v) 0 := by
  simp only [uflF, uflJ]
  have h1 := hasDerivAt_integral Q Q.cells _ _ 0 (fun k _ => hasDerivAt_elastic P u w (v k) k)
  have h2 := hasDerivAt_integral Q Q.contact _ _ 0 (fun k hk => hasDerivAt_contact P (Q.n k) (uflGamma P Q k)
    (Q.x k (P.dim - 1) + P.planeLoc) u w (v k) k (by rw [sigmaN_eq hd, dotV_n2 hd]; exact hq k hk))
  have h3 := (h1.add h2).sub_const (integral Q Q.cells (fun k => dotV P.dim (fun _ => 0) (v k).val))
  split
  · exact h3.add (hasDerivAt_integral Q Q.dirichlet _ _ 0 (fun k _ => hasDerivAt_dirichlet P _ _ _ u w (v k) k))
  · exact h3.add (hasDerivAt_const 0 (0 : ℝ))

/-- C101: the Jacobian form of `nitsche_ufl` is the derivative of its residual form in every direction, at
every displacement that is nowhere on the border between contact and no contact. -/
theorem C101_ufl (P : Params) (hd : 0 < P.dim) (Q : Quad) (u w v : Field)
    (hq : ∀ k ∈ Q.contact, approach P.dim (traction P.dim (shearModulus P.E P.nu)
        (lameFirst P.planeStrain P.E P.nu) (u k).grad (Q.n k))
      + P.gamma * P.E / Q.diam k * (Q.x k (P.dim - 1) + P.planeLoc - approach P.dim (u k).val) ≠ 0) :
    HasDerivAt (fun t => uflF P Q (line u w t) v) (uflJ P Q u w v) 0 :=
  ufl_derivative P hd Q u w v hq

theorem rigid_derivative (P : Params) (hd : 0 < P.dim) (Q : Quad) (u w v : Field)
    (hq : ∀ k ∈ Q.contact, approach P.dim (traction P.dim P.mu P.lmbda (u k).grad (Q.n k))
      + P.gamma * P.E / Q.circ k * (approach P.dim (Q.gap k) - approach P.dim (u k).val) ≠ 0) :
    HasDerivAt (fun t => rigidF P Q (line u w t) v) (rigidJ P Q u w v) 0 := by
  simp only [rigidF, rigidJ]
  have h1 := hasDerivAt_integral Q Q.cells _ _ 0 (fun k _ => hasDerivAt_elastic P u w (v k) k)
  have h2 := hasDerivAt_integral Q Q.contact _ _ 0 (fun k hk => hasDerivAt_contact P (Q.n k) (rigidGamma P Q k)
    (dotV P.dim (Q.gap k) (n2 P.dim)) u w (v k) k (by
      rw [sigmaN_eq hd, dotV_n2 hd, dotV_n2 hd]; exact hq k hk))
  refine HasDerivAt.fun_add (HasDerivAt.fun_add h1 ?_) h2
  split
  · exact (hasDerivAt_integral Q Q.dirichlet _ _ 0 (fun k _ => hasDerivAt_dirichlet P _ _ _ u w (v k) k)).add
      (hasDerivAt_integral Q Q.rigid _ _ 0 (fun k _ => hasDerivAt_dirichlet P _ _ _ u w (v k) k))
  · exact hasDerivAt_const 0 (0 : ℝ)

/-- C101 for `nitsche_rigid_surface`. -/
theorem C101_rigid_surface (P : Params) (hd : 0 < P.dim) (Q : Quad) (u w v : Field)
    (hq : ∀ k ∈ Q.contact, approach P.dim (traction P.dim (shearModulus P.E P.nu)
        (lameFirst P.planeStrain P.E P.nu) (u k).grad (Q.n k))
      + P.gamma * P.E / Q.circ k * (approach P.dim (Q.gap k) - approach P.dim (u k).val) ≠ 0) :
    HasDerivAt (fun t => rigidF P Q (line u w t) v) (rigidJ P Q u w v) 0 :=
  rigid_derivative P hd Q u w v hq

/-- C101 for the forms of `nitsche_custom` (its contact kernel is C49), and: without `nitsche_bc` it
raises. -/
theorem C101_custom (P : Params) (Q : Quad) (u w v : Field) :
    (P.nitscheBc = true → ∃ F : ℝ → ℝ, ∃ J, (∀ t, customF P Q (line u w t) v = some (F t))
      ∧ customJ P Q w v = some J ∧ HasDerivAt F J 0)
    ∧ (P.nitscheBc = false → customF P Q u v = none ∧ customJ P Q w v = none) := by
  constructor
  · intro h
    simp only [customF, customJ, h, if_true]
    refine ⟨_, _, fun _ => rfl, rfl, ?_⟩
    exact (hasDerivAt_integral Q Q.cells _ _ 0 (fun k _ => hasDerivAt_elastic P u w (v k) k)).add
      (hasDerivAt_integral Q Q.dirichlet _ _ 0 (fun k _ => hasDerivAt_dirichlet P _ _ _ u w (v k) k))
  · intro h
    simp [customF, customJ, h]

/-- A unit square above the plane `y = 0`, one quadrature point each for the cell (0), the contact facet (1)
and the Dirichlet facet (2). -/
def exQuad : Quad where
  cells := [0]
  contact := [1]
  dirichlet := [2]
  rigid := []
  wt := fun _ => 1
  diam := fun _ => 1 / 2
  circ := fun _ => 1 / 2
  n := fun k i => if i = 1 then (if k = 1 then -1 else 1) else 0
  x := fun k i => if i = 1 then (if k = 2 then 1 else 0) else 1 / 2
  gap := fun _ _ => 0

def exParams : Params := ⟨2, false, 2, 0, -1, 10, 0, -1, true⟩

/-- Uniform compression `u = (0, -y)`. -/
def exPress : Field := fun k =>
  ⟨fun i => if i = 1 then -exQuad.x k 1 else 0, fun i j => if i = 1 ∧ j = 1 then -1 else 0⟩

theorem exPress_traction (k i : ℕ) (hi : i < 2) :
    traction exParams.dim exParams.mu exParams.lmbda (exPress k).grad (exQuad.n k) i =
      if i = 1 then (if k = 1 then 2 else -2) else 0 := by
  have hd : exParams.dim = 2 := rfl
  rw [hd, Elasticity.traction_eq _ _ _ _ _ _ hi]
  interval_cases i <;>
    simp [sum_range_succ, exPress, exQuad, Params.mu, Params.lmbda, exParams, lameMu, lameLambda] <;>
    split <;> norm_num

/-- The compressed square is in contact, away from the border. -/
example : 0 < exParams.dim ∧ ∀ k ∈ exQuad.contact,
    approach exParams.dim (traction exParams.dim exParams.mu exParams.lmbda (exPress k).grad (exQuad.n k))
      + exParams.gamma * exParams.E / exQuad.diam k * (exQuad.x k (exParams.dim - 1) + exParams.planeLoc
        - approach exParams.dim (exPress k).val) ≠ 0 := by
  refine ⟨by decide, fun k hk => ?_⟩
  obtain rfl : k = 1 := by simpa [exQuad] using hk
  have h := exPress_traction 1 1 (by omega)
  simp only [approach, show exParams.dim - 1 = 1 from rfl, h]
  simp [exParams, exPress, exQuad]

/-! ### C102 -/

theorem ufl_consistent (P : Params) (hd : 0 < P.dim) (Q : Quad) (u v : Field) (hγ : 0 < P.gamma) (hE : 0 < P.E)
    (hh : ∀ k ∈ Q.contact, 0 < Q.diam k)
    (hlaw : ∀ k ∈ Q.contact, Signorini (approach P.dim (u k).val) (Q.x k (P.dim - 1) + P.planeLoc)
      (approach P.dim (traction P.dim P.mu P.lmbda (u k).grad (Q.n k))))
    (hD : ∀ k ∈ Q.dirichlet, ∀ i < P.dim, (u k).val i = if i = P.dim - 1 then P.disp else 0)
    (hv : P.nitscheBc = false → ∀ k ∈ Q.dirichlet, ∀ i < P.dim, (v k).val i = 0) :
    uflF P Q u v =
      quadSum Q.cells Q.wt (fun k => stressWork P.dim P.mu P.lmbda (u k).grad (v k).grad)
      - quadSum Q.contact Q.wt (fun k =>
          approach P.dim (traction P.dim P.mu P.lmbda (u k).grad (Q.n k)) * approach P.dim (v k).val)
      - quadSum Q.dirichlet Q.wt (fun k =>
          ∑ i ∈ range P.dim, traction P.dim P.mu P.lmbda (u k).grad (Q.n k) i * (v k).val i) := by
  simp only [uflF, ← integral_quadSum]
  rw [integral_congr Q (fun k _ => elastic_work P (u k) (v k)),
    integral_congr Q (fun k hk => contactF_signorini (gs := uflGamma P Q k) hd (Q.n k)
      (div_pos (mul_pos hγ hE) (hh k hk)) (u k) (v k) (hlaw k hk)), integral_neg,
    integral_congr Q (ks := Q.cells) (f := fun k => dotV P.dim (fun _ => 0) (v k).val) (g := fun _ => 0)
      (fun k _ => by simp [dotV]), integral_zero]
  split
  · rw [integral_congr Q (fun k hk => dirichletF_consistent P (Q.n k) (uD P) _ (u k) (v k) (hD k hk)), integral_neg]
    ring
  · rename_i hb
    rw [integral_congr Q (ks := Q.dirichlet) (g := fun _ => 0) (fun k hk => sum_eq_zero (fun i hi => by
      rw [hv (by simpa using hb) k hk i (mem_range.mp hi), mul_zero])), integral_zero]
    ring

/-- C102: for a displacement that meets Signorini's conditions for the plane at height `-plane_loc` and the
Dirichlet condition, the residual form of `nitsche_ufl` is the balance of virtual work: the work of the
stress minus the work of the contact pressure and of the reaction on the Dirichlet facets.  Neither gamma,
theta nor the cell size enter.  With strong Dirichlet conditions the test functions vanish there. -/
theorem C102_ufl (P : Params) (hd : 0 < P.dim) (Q : Quad) (u v : Field) (hγ : 0 < P.gamma) (hE : 0 < P.E)
    (hh : ∀ k ∈ Q.contact, 0 < Q.diam k)
    (hlaw : ∀ k ∈ Q.contact, Signorini (approach P.dim (u k).val) (Q.x k (P.dim - 1) + P.planeLoc)
      (approach P.dim (traction P.dim (shearModulus P.E P.nu)
        (lameFirst P.planeStrain P.E P.nu) (u k).grad (Q.n k))))
    (hD : ∀ k ∈ Q.dirichlet, ∀ i < P.dim, (u k).val i = if i = P.dim - 1 then P.disp else 0)
    (hv : P.nitscheBc = false → ∀ k ∈ Q.dirichlet, ∀ i < P.dim, (v k).val i = 0) :
    uflF P Q u v =
      quadSum Q.cells Q.wt (fun k => stressWork P.dim (shearModulus P.E P.nu)
        (lameFirst P.planeStrain P.E P.nu) (u k).grad (v k).grad)
      - quadSum Q.contact Q.wt (fun k =>
          approach P.dim (traction P.dim (shearModulus P.E P.nu)
        (lameFirst P.planeStrain P.E P.nu) (u k).grad (Q.n k)) * approach P.dim (v k).val)
      - quadSum Q.dirichlet Q.wt (fun k =>
          ∑ i ∈ range P.dim, traction P.dim (shearModulus P.E P.nu)
        (lameFirst P.planeStrain P.E P.nu) (u k).grad (Q.n k) i * (v k).val i) :=
  ufl_consistent P hd Q u v hγ hE hh hlaw hD hv

theorem rigid_consistent (P : Params) (hd : 0 < P.dim) (Q : Quad) (u v : Field) (hγ : 0 < P.gamma)
    (hE : 0 < P.E) (hh : ∀ k ∈ Q.contact, 0 < Q.circ k)
    (hlaw : ∀ k ∈ Q.contact, Signorini (approach P.dim (u k).val) (approach P.dim (Q.gap k))
      (approach P.dim (traction P.dim P.mu P.lmbda (u k).grad (Q.n k))))
    (hD : ∀ k ∈ Q.dirichlet, ∀ i < P.dim, (u k).val i = if i = P.dim - 1 then P.disp else 0)
    (hR : ∀ k ∈ Q.rigid, ∀ i < P.dim, (u k).val i = 0)
    (hv : P.nitscheBc = false → ∀ k, k ∈ Q.dirichlet ∨ k ∈ Q.rigid → ∀ i < P.dim, (v k).val i = 0) :
    rigidF P Q u v =
      quadSum Q.cells Q.wt (fun k => stressWork P.dim P.mu P.lmbda (u k).grad (v k).grad)
      - quadSum Q.contact Q.wt (fun k =>
          approach P.dim (traction P.dim P.mu P.lmbda (u k).grad (Q.n k)) * approach P.dim (v k).val)
      - quadSum Q.dirichlet Q.wt (fun k =>
          ∑ i ∈ range P.dim, traction P.dim P.mu P.lmbda (u k).grad (Q.n k) i * (v k).val i)
      - quadSum Q.rigid Q.wt (fun k =>
          ∑ i ∈ range P.dim, traction P.dim P.mu P.lmbda (u k).grad (Q.n k) i * (v k).val i) := by
  simp only [rigidF, ← integral_quadSum]
  rw [integral_congr Q (fun k _ => elastic_work P (u k) (v k)),
    integral_congr Q (fun k hk => contactF_signorini (gs := rigidGamma P Q k)
      (g := dotV P.dim (Q.gap k) (n2 P.dim)) hd (Q.n k) (div_pos (mul_pos hγ hE) (hh k hk)) (u k) (v k) (by
        rw [dotV_n2 hd]; exact hlaw k hk)), integral_neg]
  split
  · rw [integral_congr Q (fun k hk => dirichletF_consistent P (Q.n k) (uD P) _ (u k) (v k) (hD k hk)), integral_neg,
      integral_congr Q (fun k hk => dirichletF_consistent P (Q.n k) (fun _ => 0) _ (u k) (v k) (hR k hk)),
      integral_neg]
    ring
  · rename_i hb
    have hv := hv (by simpa using hb)
    rw [integral_congr Q (ks := Q.dirichlet) (g := fun _ => 0) (fun k hk => sum_eq_zero (fun i hi => by
        rw [hv k (Or.inl hk) i (mem_range.mp hi), mul_zero])), integral_zero,
      integral_congr Q (ks := Q.rigid) (g := fun _ => 0) (fun k hk => sum_eq_zero (fun i hi => by
        rw [hv k (Or.inr hk) i (mem_range.mp hi), mul_zero])), integral_zero]
    ring

/-- C102 for `nitsche_rigid_surface`: the gap is the interpolated distance vector to the rigid surface; the
rigid body is held on its own Dirichlet facets. -/
theorem C102_rigid_surface (P : Params) (hd : 0 < P.dim) (Q : Quad) (u v : Field) (hγ : 0 < P.gamma)
    (hE : 0 < P.E) (hh : ∀ k ∈ Q.contact, 0 < Q.circ k)
    (hlaw : ∀ k ∈ Q.contact, Signorini (approach P.dim (u k).val) (approach P.dim (Q.gap k))
      (approach P.dim (traction P.dim (shearModulus P.E P.nu)
        (lameFirst P.planeStrain P.E P.nu) (u k).grad (Q.n k))))
    (hD : ∀ k ∈ Q.dirichlet, ∀ i < P.dim, (u k).val i = if i = P.dim - 1 then P.disp else 0)
    (hR : ∀ k ∈ Q.rigid, ∀ i < P.dim, (u k).val i = 0)
    (hv : P.nitscheBc = false → ∀ k, k ∈ Q.dirichlet ∨ k ∈ Q.rigid → ∀ i < P.dim, (v k).val i = 0) :
    rigidF P Q u v =
      quadSum Q.cells Q.wt (fun k => stressWork P.dim (shearModulus P.E P.nu)
        (lameFirst P.planeStrain P.E P.nu) (u k).grad (v k).grad)
      - quadSum Q.contact Q.wt (fun k =>
          approach P.dim (traction P.dim (shearModulus P.E P.nu)
        (lameFirst P.planeStrain P.E P.nu) (u k).grad (Q.n k)) * approach P.dim (v k).val)
      - quadSum Q.dirichlet Q.wt (fun k =>
          ∑ i ∈ range P.dim, traction P.dim (shearModulus P.E P.nu)
        (lameFirst P.planeStrain P.E P.nu) (u k).grad (Q.n k) i * (v k).val i)
      - quadSum Q.rigid Q.wt (fun k =>
          ∑ i ∈ range P.dim, traction P.dim (shearModulus P.E P.nu)
        (lameFirst P.planeStrain P.E P.nu) (u k).grad (Q.n k) i * (v k).val i) :=
  rigid_consistent P hd Q u v hγ hE hh hlaw hD hR hv

theorem weakDirichlet_consistent (P : Params) (Q : Quad) (h : ℕ → ℝ) (ks : List ℕ) (f : ℕ → ℕ → ℝ) (F : ℝ)
    (u v : Field) (hD : ∀ k ∈ ks, ∀ i < P.dim, (u k).val i = f k i) :
    weakDirichlet P Q h ks f F u v = F - quadSum ks Q.wt (fun k =>
      ∑ i ∈ range P.dim, traction P.dim P.mu P.lmbda (u k).grad (Q.n k) i * (v k).val i) := by
  rw [weakDirichlet, ← integral_quadSum,
    integral_congr Q (fun k hk => dirichletF_consistent P (Q.n k) (f k) _ (u k) (v k) (hD k hk)), integral_neg]
  ring

/-- C102: `weak_dirichlet` adds to a form, for a displacement that meets the condition, minus the work of the
reaction, for every gamma, theta and cell size. -/
theorem C102_weak_dirichlet (P : Params) (Q : Quad) (h : ℕ → ℝ) (ks : List ℕ) (f : ℕ → ℕ → ℝ) (F : ℝ)
    (u v : Field) (hD : ∀ k ∈ ks, ∀ i < P.dim, (u k).val i = f k i) :
    weakDirichlet P Q h ks f F u v = F - quadSum ks Q.wt (fun k =>
      ∑ i ∈ range P.dim, traction P.dim (shearModulus P.E P.nu)
        (lameFirst P.planeStrain P.E P.nu) (u k).grad (Q.n k) i * (v k).val i) :=
  weakDirichlet_consistent P Q h ks f F u v hD

/-- The compressed square meets the hypotheses: it presses on the plane and is moved by -1 at the top. -/
example : 0 < exParams.gamma ∧ 0 < exParams.E ∧ (∀ k ∈ exQuad.contact, 0 < exQuad.diam k)
    ∧ (∀ k ∈ exQuad.contact, Signorini (approach exParams.dim (exPress k).val)
        (exQuad.x k (exParams.dim - 1) + exParams.planeLoc)
        (approach exParams.dim (traction exParams.dim exParams.mu exParams.lmbda (exPress k).grad (exQuad.n k)))
      ∧ approach exParams.dim (traction exParams.dim exParams.mu exParams.lmbda (exPress k).grad (exQuad.n k)) = -2)
    ∧ ∀ k ∈ exQuad.dirichlet, ∀ i < exParams.dim,
        (exPress k).val i = if i = exParams.dim - 1 then exParams.disp else 0 := by
  refine ⟨by norm_num [exParams], by norm_num [exParams], fun k _ => by norm_num [exQuad], fun k hk => ?_,
    fun k hk i hi => ?_⟩
  · obtain rfl : k = 1 := by simpa [exQuad] using hk
    have h := exPress_traction 1 1 (by omega)
    simp only [Signorini, approach, show exParams.dim - 1 = 1 from rfl, h]
    norm_num [exParams, exPress, exQuad]
  · obtain rfl : k = 2 := by simpa [exQuad] using hk
    simp only [exParams] at hi
    interval_cases i <;> simp [exParams, exPress, exQuad]

/-! ### C103 -/

/-- C103: with theta = 1 the Jacobian forms of both UFL drivers are symmetric. -/
theorem C103_symmetric (P : Params) (hθ : P.theta = 1) (Q : Quad) (u w v : Field) :
    uflJ P Q u w v = uflJ P Q u v w ∧ rigidJ P Q u w v = rigidJ P Q u v w := by
  have he : integral Q Q.cells (fun k => elastic P (w k) (v k)) =
      integral Q Q.cells (fun k => elastic P (v k) (w k)) :=
    integral_congr Q (fun k _ => by rw [elastic_work, elastic_work, stressWork_comm])
  constructor
  · simp only [uflJ]
    rw [he, integral_congr Q (fun k _ => contactJ_symm P hθ _ _ _ (u k) (w k) (v k)),
      integral_congr Q (fun k _ => dirichletJ_symm P hθ _ _ (w k) (v k))]
  · simp only [rigidJ]
    rw [he, integral_congr Q (fun k _ => contactJ_symm P hθ _ _ _ (u k) (w k) (v k)),
      integral_congr Q (ks := Q.dirichlet) (fun k _ => dirichletJ_symm P hθ _ _ (w k) (v k)),
      integral_congr Q (ks := Q.rigid) (fun k _ => dirichletJ_symm P hθ _ _ (w k) (v k))]

theorem ufl_stable (P : Params) (hθ : P.theta = -1) (hγ : 0 < P.gamma) (hE : 0 < P.E) (Q : Quad)
    (hw : ∀ k, 0 ≤ Q.wt k) (hh : ∀ k, 0 < Q.diam k) (u v : Field) :
    quadSum Q.cells Q.wt (fun k => stressWork P.dim P.mu P.lmbda (v k).grad (v k).grad) ≤ uflJ P Q u v v := by
  rw [← integral_quadSum]
  simp only [uflJ, elastic_work]
  have hg : ∀ k, 0 < uflGamma P Q k := fun k => div_pos (mul_pos hγ hE) (hh k)
  have h1 := integral_nonneg (Q := Q) (ks := Q.contact) (fun k _ => hw k)
    (fun k _ => contactJ_nonneg P hθ (Q.n k) (hg k) (Q.x k (P.dim - 1) + P.planeLoc) (u k) (v k))
  split
  · have h2 := integral_nonneg (Q := Q) (ks := Q.dirichlet) (fun k _ => hw k)
      (fun k _ => dirichletJ_nonneg P hθ (Q.n k) (div_pos (hg k) (hh k)).le (v k))
    linarith
  · linarith

/-- C103: with theta = -1 the Jacobian form of `nitsche_ufl` is bounded below by the elastic energy of the
direction, at every displacement, for every positive gamma. -/
theorem C103_stable_ufl (P : Params) (hθ : P.theta = -1) (hγ : 0 < P.gamma) (hE : 0 < P.E) (Q : Quad)
    (hw : ∀ k, 0 ≤ Q.wt k) (hh : ∀ k, 0 < Q.diam k) (u v : Field) :
    quadSum Q.cells Q.wt (fun k => stressWork P.dim (shearModulus P.E P.nu)
        (lameFirst P.planeStrain P.E P.nu) (v k).grad (v k).grad) ≤ uflJ P Q u v v :=
  ufl_stable P hθ hγ hE Q hw hh u v

theorem rigid_stable (P : Params) (hθ : P.theta = -1) (hγ : 0 < P.gamma) (hE : 0 < P.E) (Q : Quad)
    (hw : ∀ k, 0 ≤ Q.wt k) (hh : ∀ k, 0 < Q.circ k) (u v : Field) :
    quadSum Q.cells Q.wt (fun k => stressWork P.dim P.mu P.lmbda (v k).grad (v k).grad) ≤ rigidJ P Q u v v := by
  rw [← integral_quadSum]
  simp only [rigidJ, elastic_work]
  have hg : ∀ k, 0 < rigidGamma P Q k := fun k => div_pos (mul_pos hγ hE) (hh k)
  have h1 := integral_nonneg (Q := Q) (ks := Q.contact) (fun k _ => hw k)
    (fun k _ => contactJ_nonneg P hθ (Q.n k) (hg k) (dotV P.dim (Q.gap k) (n2 P.dim)) (u k) (v k))
  have hp : ∀ k, 0 ≤ P.E * P.gamma / Q.circ k := fun k => (div_pos (mul_pos hE hγ) (hh k)).le
  split
  · have h2 := integral_nonneg (Q := Q) (ks := Q.dirichlet) (fun k _ => hw k)
      (fun k _ => dirichletJ_nonneg P hθ (Q.n k) (hp k) (v k))
    have h3 := integral_nonneg (Q := Q) (ks := Q.rigid) (fun k _ => hw k)
      (fun k _ => dirichletJ_nonneg P hθ (Q.n k) (hp k) (v k))
    linarith
  · linarith

/-- C103 for `nitsche_rigid_surface`. -/
theorem C103_stable_rigid_surface (P : Params) (hθ : P.theta = -1) (hγ : 0 < P.gamma) (hE : 0 < P.E) (Q : Quad)
    (hw : ∀ k, 0 ≤ Q.wt k) (hh : ∀ k, 0 < Q.circ k) (u v : Field) :
    quadSum Q.cells Q.wt (fun k => stressWork P.dim (shearModulus P.E P.nu)
        (lameFirst P.planeStrain P.E P.nu) (v k).grad (v k).grad) ≤ rigidJ P Q u v v :=
  rigid_stable P hθ hγ hE Q hw hh u v

theorem energy_nonneg (P : Params) (hE : 0 < P.E) (hnu : 0 ≤ P.nu) (hnu' : P.nu < 1 / 2) (Q : Quad)
    (hw : ∀ k, 0 ≤ Q.wt k) (v : Field) :
    0 ≤ quadSum Q.cells Q.wt (fun k => stressWork P.dim P.mu P.lmbda (v k).grad (v k).grad) := by
  have hmu : 0 ≤ P.mu := div_nonneg hE.le (by linarith)
  have hlam : 0 ≤ P.lmbda := by
    unfold Params.lmbda lameLambda
    split
    · exact div_nonneg (mul_nonneg hE.le hnu) (mul_nonneg (by linarith) (by linarith))
    · exact div_nonneg (mul_nonneg hE.le hnu) (mul_nonneg (by linarith) (by linarith))
  exact integral_nonneg (Q := Q) (fun k _ => hw k) (fun k _ => stressWork_nonneg hmu hlam _)

/-- C103: the elastic energy is not negative for admissible materials (`E > 0`, `0 ≤ nu < 1/2`), so the
Jacobian forms are positive semidefinite. -/
theorem C103_energy (P : Params) (hE : 0 < P.E) (hnu : 0 ≤ P.nu) (hnu' : P.nu < 1 / 2) (Q : Quad)
    (hw : ∀ k, 0 ≤ Q.wt k) (v : Field) :
    0 ≤ quadSum Q.cells Q.wt (fun k => stressWork P.dim (shearModulus P.E P.nu)
        (lameFirst P.planeStrain P.E P.nu) (v k).grad (v k).grad) :=
  energy_nonneg P hE hnu hnu' Q hw v

example : exParams.theta = -1 ∧ 0 < exParams.gamma ∧ 0 < exParams.E ∧ 0 ≤ exParams.nu ∧ exParams.nu < 1 / 2
    ∧ (∀ k, 0 ≤ exQuad.wt k) ∧ (∀ k, 0 < exQuad.diam k) ∧ ∀ k, 0 < exQuad.circ k := by
  norm_num [exParams, exQuad]

/-! ### C104 -/

/-- What `nitsche_custom` passes to the rigid kernel for facet `f` (`nitsche_custom.py:168-169`, `190-195`,
`198`, `215-218`, `231-237`): material, circumradius, the output of `pack_gap_plane`, displacement and
gradient `U q` at the points; the constants `E gamma`, `theta` and the upward normal. -/
structure CustomRow (P : Params) (D : Kernels.KD) (nF f : ℕ) (X : ℕ → ℝ) (h : ℝ) (U : ℕ → Val)
    (c w : ℕ → ℝ) : Prop where
  mu : c 0 = shearModulus P.E P.nu
  lam : c 1 = lameFirst P.planeStrain P.E P.nu
  size : c 2 = h
  gap : ∀ q < D.nq, ∀ a < D.gdim, c (3 + q * D.gdim + a) =
    Packing.packGapPlane nF D.nq D.gdim X (-P.planeLoc) (f * (D.nq * D.gdim) + q * D.gdim + a)
  val : ∀ q < D.nq, ∀ a < D.gdim, c (D.rdims.oU + q * D.gdim + a) = (U q).val a
  grad : ∀ q < D.nq, ∀ a < D.gdim, ∀ b < D.gdim,
    c (D.rdims.oGrad + (q * D.gdim + a) * D.gdim + b) = (U q).grad a b
  gamma : w 0 = P.E * P.gamma
  theta : w 1 = P.theta
  normal : ∀ a < D.gdim, w (a + 2) = if a = D.gdim - 1 then 1 else 0

/-- C104: on affine cells the contact kernel of `nitsche_custom` adds to the entry of basis function `i`,
component `n`, exactly the contact integral of the form of `nitsche_ufl` tested with that function, when both
use the same cell size. -/
theorem C104_contact_partial (P : Params) (D : Kernels.KD) (haff : Kernels.AffineConst D)
    (hcell : D.affine = true) (hbs : D.bs = D.gdim) (hdim : P.dim = D.gdim) (hd : 0 < D.gdim)
    (nF f : ℕ) (hf : f < nF) (X : ℕ → ℝ) (h : ℝ) (hh : 0 < h) (hE : 0 < P.E) (hγ : 0 < P.gamma) (U : ℕ → Val)
    (junk c w : ℕ → ℝ) (hrow : CustomRow P D nF f X h U c w) (b : Arr (ℕ × ℕ)) (i n : ℕ) (hi : i < D.nd)
    (hn : n < D.bs) :
    Kernels.rigidRhs D true junk c w b (0, i * D.bs + n) = b (0, i * D.bs + n)
      + ∑ q ∈ range D.nq, |D.det (D.qStart + q)| * D.weights q *
        contactF P (Kernels.facetNormal D q) (P.gamma * P.E / h)
          (X ((f * D.nq + q) * D.gdim + (P.dim - 1)) + P.planeLoc) (U q)
          ⟨fun a => if a = n then Kernels.facetPhi D q i else 0,
            fun a b => if a = n then Kernels.facetGrad D q i b else 0⟩ := by
  rw [Kernels.C78_rigid_partial D haff true junk c w hbs (Or.inr hcell) b i n hi hn]
  refine congrArg (_ + ·) (sum_congr rfl (fun q hq => congrArg _ ?_))
  have hq := mem_range.mp hq
  have hmu : c 0 = P.mu := hrow.1
  have hlam : c 1 = P.lmbda := hrow.2
  have hd' : 0 < P.dim := by omega
  have hg : D.rdims.g = D.gdim := rfl
  have hN : ∀ a < D.gdim, D.rdims.normal true c w q a = n2 D.gdim a := fun a ha => by
    simp only [RigidDims.normal, if_true, n2, hrow.normal a ha]
    split <;> simp
  have hdot : ∀ x : ℕ → ℝ, D.rdims.dotN true c w q x = approach D.gdim x := fun x => by
    rw [← dotV_n2 hd, RigidDims.dotN, dotV, hg]
    exact sum_congr rfl (fun a ha => by rw [hN a (mem_range.mp ha)])
  have htr : approach D.gdim (D.rdims.trac c (Kernels.facetNormal D q) q) =
      approach D.gdim (traction D.gdim P.mu P.lmbda (U q).grad (Kernels.facetNormal D q)) := by
    simp only [approach, RigidDims.trac, hg, hmu, hlam]
    rw [Elasticity.traction_eq _ _ _ _ _ _ (show D.gdim - 1 < D.gdim by omega),
      Elasticity.traction_eq _ _ _ _ _ _ (show D.gdim - 1 < D.gdim by omega)]
    have h1 : ∀ x < D.gdim, ∀ y < D.gdim,
        c (D.rdims.oGrad + (q * D.gdim + x) * D.gdim + y) = (U q).grad x y := fun x hx y hy => hrow.grad q hq x hx y hy
    rw [sum_congr rfl (fun j hj => by
      rw [h1 j (mem_range.mp hj) _ (show D.gdim - 1 < D.gdim by omega),
        h1 _ (show D.gdim - 1 < D.gdim by omega) j (mem_range.mp hj)]),
      sum_congr (g := fun k => (U q).grad k k) rfl (fun k hk => h1 k (mem_range.mp hk) k (mem_range.mp hk))]
  have hgap : approach D.gdim (fun a => c (D.rdims.oGap + q * D.gdim + a)) =
      X ((f * D.nq + q) * D.gdim + (D.gdim - 1)) + P.planeLoc := by
    have := hrow.gap q hq (D.gdim - 1) (by omega)
    rw [Packing.C30_gap_plane nF D.nq D.gdim X (-P.planeLoc) f q (D.gdim - 1) hf hq (by omega)] at this
    simp only [approach, RigidDims.oGap, this]
    rw [if_pos (by omega)]
    ring
  have hu : approach D.gdim (fun a => c (D.rdims.oU + q * D.gdim + a)) = approach D.gdim (U q).val := by
    simp only [approach]
    rw [hrow.val q hq (D.gdim - 1) (by omega)]
  simp only [contactF, sigmaN_eq hd', dotV_n2 hd, RigidDims.form, RigidDims.pressure, hdot, hdim, htr, hgap, hu,
    hrow.size, hrow.gamma, hrow.theta, hmu, hlam, hg]
  set s := approach D.gdim (traction D.gdim P.mu P.lmbda (U q).grad (Kernels.facetNormal D q))
  set m := approach D.gdim (U q).val
  set g := X ((f * D.nq + q) * D.gdim + (D.gdim - 1)) + P.planeLoc
  set sv := approach D.gdim (traction D.gdim P.mu P.lmbda
    (fun a b => if a = n then Kernels.facetGrad D q i b else 0) (Kernels.facetNormal D q))
  set vn := approach D.gdim (fun a => if a = n then Kernels.facetPhi D q i else 0)
  have hEγ : 0 < P.E * P.gamma := mul_pos hE hγ
  have hr : pyRMinus (s + P.gamma * P.E / h * (g - m)) =
      P.E * P.gamma / h * min 0 (h / (P.E * P.gamma) * s + (g - m)) := by
    rw [show pyRMinus = rMinus from rfl, (C01_split _).2.2.2.2.2, min_comm, ← mul_zero (P.E * P.gamma / h)]
    rw [show s + P.gamma * P.E / h * (g - m) =
      P.E * P.gamma / h * (h / (P.E * P.gamma) * s + (g - m)) by
        have := hE.ne'; have := hγ.ne'; have := hh.ne'
        field_simp]
    rw [mul_zero, mul_min_of_nonneg _ _ (div_pos hEγ hh).le, mul_zero]
  rw [hr]
  have := hE.ne'; have := hγ.ne'; have := hh.ne'
  field_simp

/-- A row of the compressed square for the example facet at height 3 above the plane at height -2. -/
example : CustomRow { exParams with planeLoc := 2 } Kernels.exD 1 0 (fun m => if m = 1 then 3 else 0) (1 / 2)
    exPress (fun m => ([1, 0, 1 / 2, 0, -5, 0, 0, 0, 0, 0, -1] : List ℝ).getD m 0)
    (fun m => ([20, -1, 0, 1] : List ℝ).getD m 0) := by
  constructor
  · norm_num [shearModulus, exParams]
  · norm_num [lameFirst, exParams]
  · rfl
  · intro q hq a ha
    rw [Packing.C30_gap_plane 1 _ _ _ _ 0 q a (by omega) hq ha]
    simp only [Kernels.exD] at hq ha ⊢
    interval_cases q <;> interval_cases a <;> norm_num
  · intro q hq a ha
    simp only [Kernels.exD] at hq ha
    interval_cases q <;> interval_cases a <;>
      simp [Kernels.KD.rdims, Kernels.exD, RigidDims.oU, RigidDims.oGap, exPress, exQuad]
  · intro q hq a ha b hb
    simp only [Kernels.exD] at hq ha hb
    interval_cases q <;> interval_cases a <;> interval_cases b <;>
      simp [Kernels.KD.rdims, Kernels.exD, RigidDims.oU, RigidDims.oGap, RigidDims.oGrad, exPress]
  · norm_num [exParams]
  · norm_num [exParams]
  · intro a ha
    simp only [Kernels.exD] at ha ⊢
    interval_cases a <;> norm_num

/-- C104: apart from the contact term, the two residuals differ by the Dirichlet penalty, which is
`gamma E / h²` in `nitsche_ufl` and `gamma E / h` in `nitsche_custom`, even where both use the same cell
size. -/
theorem C104_dirichlet_violated :
    (∀ (P : Params) (Q : Quad) (u v : Field) (r : ℝ), Q.contact = [] → (∀ k, Q.diam k = Q.circ k) →
      customF P Q u v = some r →
      uflF P Q u v - r = quadSum Q.dirichlet Q.wt (fun k => P.gamma * P.E / Q.diam k * (1 / Q.diam k - 1)
        * ∑ i ∈ range P.dim, ((u k).val i - uD P i) * (v k).val i))
    ∧ ∃ (P : Params) (Q : Quad) (u v : Field) (r : ℝ), Q.contact = [] ∧ (∀ k, Q.diam k = Q.circ k)
      ∧ (∀ k, 0 < Q.diam k) ∧ customF P Q u v = some r ∧ uflF P Q u v ≠ r := by
  have key : ∀ (P : Params) (Q : Quad) (u v : Field) (r : ℝ), Q.contact = [] → (∀ k, Q.diam k = Q.circ k) →
      customF P Q u v = some r →
      uflF P Q u v - r = quadSum Q.dirichlet Q.wt (fun k => P.gamma * P.E / Q.diam k * (1 / Q.diam k - 1)
        * ∑ i ∈ range P.dim, ((u k).val i - uD P i) * (v k).val i) := by
    intro P Q u v r hc hh hr
    unfold customF at hr
    split at hr
    · rename_i hb
      obtain rfl := Option.some.inj hr
      simp only [uflF, hb, if_true, hc, ← integral_quadSum]
      have hz : integral Q Q.cells (fun k => dotV P.dim (fun _ => 0) (v k).val) = 0 :=
        (integral_congr Q (g := fun _ => 0) (fun k _ => by simp [dotV])).trans (integral_zero Q Q.cells)
      have hsub : ∀ (ks : List ℕ) (f g : ℕ → ℝ), integral Q ks (fun k => f k - g k) =
          integral Q ks f - integral Q ks g := by
        intro ks f g
        induction ks with
        | nil => simp [integral]
        | cons a l ih =>
          simp only [integral, List.map_cons, List.sum_cons] at ih ⊢
          rw [ih]; ring
      have hn : ∀ f : ℕ → ℝ, integral Q [] f = 0 := fun f => by simp [integral]
      rw [hz, hn, add_zero, sub_zero, add_sub_add_left_eq_sub, ← hsub]
      refine integral_congr Q (fun k _ => ?_)
      simp only [dirichletF, uflGamma, ← hh k, dotV]
      ring
    · simp at hr
  refine ⟨key, exParams, { exQuad with contact := [] }, fun _ => ⟨fun _ => 0, fun _ _ => 0⟩,
    fun _ => ⟨fun _ => 1, fun _ _ => 0⟩, _, rfl, fun _ => rfl, fun _ => by norm_num [exQuad], rfl, fun h => ?_⟩
  have := key exParams { exQuad with contact := [] } (fun _ => ⟨fun _ => 0, fun _ _ => 0⟩)
    (fun _ => ⟨fun _ => 1, fun _ _ => 0⟩) _ rfl (fun _ => rfl) rfl
  rw [h, sub_self] at this
  simp only [quadSum, exQuad, exParams, uD, List.map_cons, List.map_nil, List.sum_cons, List.sum_nil,
    sum_range_succ, sum_range_zero] at this
  norm_num at this

end

end Verif.OneSided
