import Verif.Lemmas.ObstacleForm
import Verif.Lemmas.OneSidedDriver
import Verif.Props.Driver
import Verif.Props.Moments

/-!
Properties C176-C180: the drivers `nitsche_custom` and `nitsche_rigid_surface_custom`.
-/

namespace Verif.OneSidedDriver

open Verif.ContactProblem Verif.Spec Verif.Kernels Verif.Assembly Finset

noncomputable section

variable {D : Data}

/-! ### an example -/

/-- Parameters: `E = 10`, `nu = 0`, `theta = -1`, `gamma = 1`, plane at height -1. -/
def exP : OneSided.Params := ⟨2, true, 10, 0, -1, 1, 1, -1 / 10, true⟩

/-- One triangle over the plane `y = -1`, with a bulk stiffness of one. -/
def exO : Data where
  Y := exR 1 0
  P := exP
  size := fun _ => 1
  qp := fun _ => 0
  bulk := fun u d => u d
  stiff := fun _ d c => if d = c then 1 else 0
  junk := fun _ => 0
  numDofs := 6
  linSolve := fun _ b _ => (b, 1, 1)

theorem exO_valid : System.Valid exO.Y := exR_valid 1 0

theorem exO_below : SurfaceBelow exO.Y 6 := by
  intro p hp a ha
  have hp' : p = (0, 2) := by simpa [exO, exR] using hp
  have ha' : a < 3 := ha
  subst hp'
  show 2 * (3 * 0 + a) + 2 ≤ 6
  omega

theorem exO_size : ∀ p ∈ exO.Y.facets 0, 0 < exO.size p.1 := fun _ _ => one_pos

theorem exO_gamma : 0 < exO.P.E * exO.P.gamma := by simp [exO, exP]

/-! ### C176: the plane -/

theorem planeResidual_eq (hY : System.Valid D.Y) (u : ℕ → ℝ) (d : ℕ) :
    planeResidual D u () d = contactVector D true (planeConsts D) (planeMat D u) d + D.bulk u d := by
  unfold planeResidual
  rw [planeRows_ok hY]

theorem planeJacobian_eq (hY : System.Valid D.Y) (u : ℕ → ℝ) (d c : ℕ) :
    planeJacobian D u () (d, c) = contactMatrix D true (planeConsts D) (planeMat D u) (d, c) + D.stiff u d c := by
  unfold planeJacobian
  rw [planeRows_ok hY]

/-- C176: the residual `nitsche_custom` gives to the Newton solver is the residual of the bulk plus Nitsche's contact
form for the plane `x_last = -plane_loc`, with `gamma E` as its parameter; packing and assembly raise nothing. What is
missing: cells which are not affine, see `C176_uninitialised_violated`. -/
theorem C176_vector_partial (hY : System.Valid D.Y) (haff : D.Y.affine = true) (hh : ∀ p ∈ D.Y.facets 0, 0 < D.size p.1)
    (N : ℕ) (hN : SurfaceBelow D.Y N) (u v : ℕ → ℝ) :
    (∃ c b, planeRows D u = .ok c
      ∧ assembleVector (assembler D.Y) (kernel D true (planeConsts D) .rhs) (flat c) c.cols 0 = .ok b)
    ∧ ∑ d ∈ range N, planeResidual D u () d * v d = ∑ d ∈ range N, D.bulk u d * v d
      + obstacleForm D.Y (planePoint D.Y D.P D.size D.qp) (D.P.E * D.P.gamma) D.P.theta u v := by
  refine ⟨⟨_, _, planeRows_ok hY u, (contactVector_ok hY true (planeConsts D) (planeMat D u)).1⟩, ?_⟩
  have h := vector_tested hY true (Or.inr haff) (planeConsts D) (planeMat D u) _ u v (plane_rows hY u hh) N hN
  have e0 : planeConsts D 0 = D.P.E * D.P.gamma := rfl
  have e1 : planeConsts D 1 = D.P.theta := rfl
  rw [e0, e1] at h
  rw [← h, ← sum_add_distrib]
  exact sum_congr rfl (fun d _ => by rw [planeResidual_eq hY]; ring)

example : System.Valid exO.Y ∧ exO.Y.affine = true ∧ (∀ p ∈ exO.Y.facets 0, 0 < exO.size p.1) ∧ SurfaceBelow exO.Y 6 :=
  ⟨exO_valid, rfl, exO_size, exO_below⟩

/-- C176: the matrix is the stiffness matrix of the bulk plus the linearised contact form; nothing raises. Affine
cells, as in `C176_vector_partial`. -/
theorem C176_matrix_partial (hY : System.Valid D.Y) (haff : D.Y.affine = true) (hh : ∀ p ∈ D.Y.facets 0, 0 < D.size p.1)
    (hγ : 0 < D.P.E * D.P.gamma) (N : ℕ) (hN : SurfaceBelow D.Y N) (u w v : ℕ → ℝ) :
    (∃ c A, planeRows D u = .ok c
      ∧ assembleMatrix (addValues D.Y.gdim) (assembler D.Y) (kernel D true (planeConsts D) .jac) (flat c) c.cols 0 = .ok A)
    ∧ ∑ d ∈ range N, (∑ c ∈ range N, planeJacobian D u () (d, c) * w c) * v d
      = ∑ d ∈ range N, (∑ c ∈ range N, D.stiff u d c * w c) * v d
        + obstacleTangent D.Y (planePoint D.Y D.P D.size D.qp) (D.P.E * D.P.gamma) D.P.theta u w v := by
  refine ⟨⟨_, _, planeRows_ok hY u, (contactMatrix_ok hY true (planeConsts D) (planeMat D u)).1⟩, ?_⟩
  have h := matrix_tested hY true (Or.inr haff) (planeConsts D) hγ (planeMat D u) _ u w v (plane_rows hY u hh) N hN
  have e0 : planeConsts D 0 = D.P.E * D.P.gamma := rfl
  have e1 : planeConsts D 1 = D.P.theta := rfl
  rw [e0, e1] at h
  rw [← h, ← sum_add_distrib]
  refine sum_congr rfl (fun d _ => ?_)
  rw [← add_mul, ← sum_add_distrib]
  congr 1
  exact sum_congr rfl (fun c _ => by rw [planeJacobian_eq hY]; ring)

example : System.Valid exO.Y ∧ exO.Y.affine = true ∧ (∀ p ∈ exO.Y.facets 0, 0 < exO.size p.1)
    ∧ 0 < exO.P.E * exO.P.gamma ∧ SurfaceBelow exO.Y 6 :=
  ⟨exO_valid, rfl, exO_size, exO_gamma, exO_below⟩

/-- C176: where no point is about to touch or leave the plane, the matrix is the derivative of the residual (if that
of the bulk is). Affine cells. -/
theorem C176_derivative_partial (hY : System.Valid D.Y) (haff : D.Y.affine = true) (hh : ∀ p ∈ D.Y.facets 0, 0 < D.size p.1)
    (hγ : 0 < D.P.E * D.P.gamma) (N : ℕ) (hN : SurfaceBelow D.Y N) (u w v : ℕ → ℝ)
    (hb : ∀ d < N, HasDerivAt (fun s => D.bulk (fun c => u c + s * w c) d) (∑ c ∈ range N, D.stiff u d c * w c) 0)
    (hsw : NotSwitching D.Y (planePoint D.Y D.P D.size D.qp) (D.P.E * D.P.gamma) u) :
    HasDerivAt (fun s => ∑ d ∈ range N, planeResidual D (fun c => u c + s * w c) () d * v d)
      (∑ d ∈ range N, (∑ c ∈ range N, planeJacobian D u () (d, c) * w c) * v d) 0 := by
  rw [(C176_matrix_partial hY haff hh hγ N hN u w v).2]
  simp only [fun u => (C176_vector_partial hY haff hh N hN u v).2]
  exact (HasDerivAt.fun_sum (fun d hd => (hb d (mem_range.mp hd)).mul_const _)).fun_add
    (obstacleForm_deriv _ _ u w v hsw)

theorem stress_zero {p : ObstaclePoint} {E : ℕ → ℕ → ℝ} (h : ∀ a < p.g, ∀ b < p.g, E a b = 0) : p.stress E = 0 := by
  unfold ObstaclePoint.stress ObstaclePoint.dot
  exact sum_eq_zero (fun a ha => by rw [traction_zero _ _ _ h (mem_range.mp ha), zero_mul])

theorem exO_switch (u : ℕ → ℝ) (hu : u = fun _ => 0) :
    NotSwitching exO.Y (planePoint exO.Y exO.P exO.size exO.qp) (exO.P.E * exO.P.gamma) u := by
  subst hu
  intro e _ cell f _ q _
  have h1 : ∀ a, valueAt exO.Y cell f (fun _ => 0) q a = 0 := fun a => by simp [valueAt]
  have h2 : ∀ a b, gradAt exO.Y cell f (fun _ => 0) q a b = 0 := fun a b => by simp [gradAt]
  have e1 : (planePoint exO.Y exO.P exO.size exO.qp e cell f q).dot (valueAt exO.Y cell f (fun _ => 0) q) = 0 :=
    sum_eq_zero (fun a _ => by rw [h1, zero_mul])
  have e2 : (planePoint exO.Y exO.P exO.size exO.qp e cell f q).stress (gradAt exO.Y cell f (fun _ => 0) q) = 0 :=
    stress_zero (fun a _ b _ => h2 a b)
  unfold ObstaclePoint.switch
  rw [e1, e2]
  simp [planePoint, exO, exP]

example : (∀ d < 6, HasDerivAt (fun s => exO.bulk (fun _ => 0 + s * 1) d) (∑ c ∈ range 6, exO.stiff (fun _ => 0) d c * 1) 0)
    ∧ NotSwitching exO.Y (planePoint exO.Y exO.P exO.size exO.qp) (exO.P.E * exO.P.gamma) (fun _ => 0) := by
  refine ⟨fun d hd => ?_, exO_switch _ rfl⟩
  have e : ∑ c ∈ range 6, exO.stiff (fun _ => 0) d c * 1 = 1 := by simp [exO, hd]
  rw [e]
  exact affine_deriv 0 1

/-! ### C177: a rigid surface -/

theorem surface_history (hY : System.Valid D.Y) {c0 : Mat} (h0 : surfaceRows D = .ok c0) (us : List (ℕ → ℝ)) :
    SurfaceFixed D (us.foldl (fun c x => surfaceUpdate D x c) c0) := by
  obtain ⟨c, hc, hF⟩ := surfaceRows_ok hY
  obtain rfl : c = c0 := Except.ok.inj (hc.symm.trans h0)
  clear hc h0
  induction us generalizing c with
  | nil => exact hF
  | cons x us ih => exact ih _ (surfaceUpdate_ok hY x hF).1

/-- C177: the array of coefficients of `nitsche_rigid_surface_custom` can be built, and after any number of updates with
other displacements, an update with `u` and the assembly give the residual of the bulk plus Nitsche's contact form for
the surface at `u`, with `gamma E` as its parameter. -/
theorem C177_vector (hY : System.Valid D.Y) (hh : ∀ p ∈ D.Y.facets 0, 0 < D.size p.1) (N : ℕ) (hN : SurfaceBelow D.Y N)
    (us : List (ℕ → ℝ)) (u v : ℕ → ℝ) :
    ∃ c0, surfaceRows D = .ok c0
      ∧ (∃ b, assembleVector (assembler D.Y) (kernel D false (surfaceConsts D) .rhs)
          (flat (surfaceUpdate D u (us.foldl (fun c x => surfaceUpdate D x c) c0)))
          (surfaceUpdate D u (us.foldl (fun c x => surfaceUpdate D x c) c0)).cols 0 = .ok b)
      ∧ ∑ d ∈ range N, surfaceResidual D u (surfaceUpdate D u (us.foldl (fun c x => surfaceUpdate D x c) c0)) d * v d
        = ∑ d ∈ range N, D.bulk u d * v d
          + obstacleForm D.Y (surfacePoint D.Y D.P D.size) (D.P.gamma * D.P.E) D.P.theta u v := by
  obtain ⟨c0, h0, -⟩ := surfaceRows_ok hY
  refine ⟨c0, h0, ?_⟩
  have hF := surface_history hY h0 us
  generalize us.foldl (fun c x => surfaceUpdate D x c) c0 = c1 at *
  refine ⟨⟨_, (contactVector_ok hY false (surfaceConsts D) (surfaceUpdate D u c1)).1⟩, ?_⟩
  have h := vector_tested hY false (Or.inl rfl) (surfaceConsts D) (surfaceUpdate D u c1) _ u v (surface_rows hY u hF hh) N hN
  have e0 : surfaceConsts D 0 = D.P.gamma * D.P.E := rfl
  have e1 : surfaceConsts D 1 = D.P.theta := rfl
  rw [e0, e1] at h
  rw [← h, ← sum_add_distrib]
  exact sum_congr rfl (fun d _ => by unfold surfaceResidual; ring)

example : System.Valid exO.Y ∧ (∀ p ∈ exO.Y.facets 0, 0 < exO.size p.1) ∧ SurfaceBelow exO.Y 6 :=
  ⟨exO_valid, exO_size, exO_below⟩

/-- C177: the matrix is the stiffness matrix of the bulk plus the linearised contact form. -/
theorem C177_matrix (hY : System.Valid D.Y) (hh : ∀ p ∈ D.Y.facets 0, 0 < D.size p.1) (hγ : 0 < D.P.gamma * D.P.E) (N : ℕ)
    (hN : SurfaceBelow D.Y N) (us : List (ℕ → ℝ)) (u w v : ℕ → ℝ) :
    ∃ c0, surfaceRows D = .ok c0
      ∧ (∃ A, assembleMatrix (addValues D.Y.gdim) (assembler D.Y) (kernel D false (surfaceConsts D) .jac)
          (flat (surfaceUpdate D u (us.foldl (fun c x => surfaceUpdate D x c) c0)))
          (surfaceUpdate D u (us.foldl (fun c x => surfaceUpdate D x c) c0)).cols 0 = .ok A)
      ∧ ∑ d ∈ range N, (∑ c ∈ range N,
          surfaceJacobian D u (surfaceUpdate D u (us.foldl (fun c x => surfaceUpdate D x c) c0)) (d, c) * w c) * v d
        = ∑ d ∈ range N, (∑ c ∈ range N, D.stiff u d c * w c) * v d
          + obstacleTangent D.Y (surfacePoint D.Y D.P D.size) (D.P.gamma * D.P.E) D.P.theta u w v := by
  obtain ⟨c0, h0, -⟩ := surfaceRows_ok hY
  refine ⟨c0, h0, ?_⟩
  have hF := surface_history hY h0 us
  generalize us.foldl (fun c x => surfaceUpdate D x c) c0 = c1 at *
  refine ⟨⟨_, (contactMatrix_ok hY false (surfaceConsts D) (surfaceUpdate D u c1)).1⟩, ?_⟩
  have h := matrix_tested hY false (Or.inl rfl) (surfaceConsts D) hγ (surfaceUpdate D u c1) _ u w v (surface_rows hY u hF hh) N hN
  have e0 : surfaceConsts D 0 = D.P.gamma * D.P.E := rfl
  have e1 : surfaceConsts D 1 = D.P.theta := rfl
  rw [e0, e1] at h
  rw [← h, ← sum_add_distrib]
  refine sum_congr rfl (fun d _ => ?_)
  rw [← add_mul, ← sum_add_distrib]
  congr 1
  exact sum_congr rfl (fun c _ => by unfold surfaceJacobian; ring)

/-- C177: the linearised form is the derivative of the form where no point is about to touch or leave the obstacle. -/
theorem C177_linearisation (Y : System Unit) (pt : ℕ → ℕ → ℕ → ℕ → ObstaclePoint) (gamma theta : ℝ) (u w v : ℕ → ℝ)
    (hsw : NotSwitching Y pt gamma u) :
    HasDerivAt (fun s => obstacleForm Y pt gamma theta (fun d => u d + s * w d) v) (obstacleTangent Y pt gamma theta u w v) 0 :=
  obstacleForm_deriv gamma theta u w v hsw

/-- C177: without `nitsche_bc` both drivers raise. -/
theorem C177_bc (D : Data) (rank0 : Bool) (opts : Newton.OptDict) (h : D.P.nitscheBc = false) :
    nitscheCustom D rank0 opts = .error .runtimeError
    ∧ nitscheRigidSurfaceCustom D rank0 opts = .error .unboundLocalError := by
  unfold nitscheCustom nitscheRigidSurfaceCustom
  rw [h]
  exact ⟨rfl, rfl⟩

example : { exO with P := { exP with nitscheBc := false } }.P.nitscheBc = false := rfl

/-! ### C178: what a converged solve returns -/

theorem configure_ok {C : Type} {x : ℕ → ℝ} {c : C} {opts : Newton.OptDict} {s : Newton.St (ℕ → ℝ) (ℕ → ℝ) C}
    (h : configure x c opts = (s, none)) :
    s.coeffs = c ∧ s.relax ≠ none ∧ s.opts.atol = opts.atol.getD 1e-7
    ∧ s.opts.errorOnNonconvergence = opts.errorOn.getD false
    ∧ ((opts.crit = none ∨ opts.crit = some (some .residual)) → s.opts.crit = .residual) := by
  unfold configure at h
  obtain ⟨atol, rtol, crit, maxIt, errorOn, relax⟩ := opts
  rcases crit with _ | _ | cr <;> rcases atol with _ | a <;> rcases rtol with _ | r <;> rcases maxIt with _ | m <;>
    rcases errorOn with _ | e <;> rcases relax with _ | y <;>
    simp only [Newton.setNewtonOptions, Newton.St.init, Newton.Opts.default, Prod.mk.injEq, reduceCtorEq, and_false,
      and_true] at h <;> subst h <;> simp

theorem finish_ok {C : Type} {pb : Newton.Problem (ℕ → ℝ) (ℕ → ℝ) (ℕ × ℕ → ℝ) C} {rank0 : Bool}
    {s : Newton.St (ℕ → ℝ) (ℕ → ℝ) C} {n : ℕ} {conv : Bool} {u : ℕ → ℝ} (h : finish pb rank0 s = .ok (n, conv, u)) :
    (Newton.solve pb rank0 .function s).2 = .ok (n, conv) ∧ u = (Newton.solve pb rank0 .function s).1.x
    ∧ ((Newton.solve pb rank0 .function s).1.opts.errorOnNonconvergence = true → conv = true) := by
  unfold finish at h
  generalize Newton.solve pb rank0 .function s = out at *
  obtain ⟨t, r⟩ := out
  cases r with
  | error e => simp at h
  | ok p =>
    obtain ⟨n', c'⟩ := p
    by_cases hc : t.opts.errorOnNonconvergence = true ∧ c' = false
    · simp [hc] at h
    · simp only [if_neg hc, Except.ok.injEq, Prod.mk.injEq] at h
      obtain ⟨rfl, rfl, rfl⟩ := h
      refine ⟨rfl, rfl, fun he => ?_⟩
      by_contra hn
      exact hc ⟨he, by simpa using hn⟩

theorem small_tested {N : ℕ} {R : ℕ → ℝ} {tol : ℝ} (h : norm2 N R < tol) (v : ℕ → ℝ) :
    |∑ d ∈ range N, R d * v d| ≤ tol * Real.sqrt (∑ d ∈ range N, v d ^ 2) :=
  (abs_sum_le R v).trans (mul_le_mul_of_nonneg_right h.le (Real.sqrt_nonneg _))

/-- What both solves have in common. -/
theorem converged_residual {C : Type} {pb : Newton.Problem (ℕ → ℝ) (ℕ → ℝ) (ℕ × ℕ → ℝ) C} (hpre : ∀ x, pb.pre x = x)
    (hpost : ∀ x, pb.post x = x) (I : C → Prop) (hI : ∀ x c, I c → I (pb.coefficients x c)) {rank0 : Bool} {x0 : ℕ → ℝ} {c0 : C}
    (hc0 : I c0) {opts : Newton.OptDict} (hcrit : opts.crit = none ∨ opts.crit = some (some .residual))
    {s : Newton.St (ℕ → ℝ) (ℕ → ℝ) C} (hs : configure x0 c0 opts = (s, none)) {n : ℕ} {u : ℕ → ℝ}
    (h : finish pb rank0 s = .ok (n, true, u)) :
    ∃ c, I c ∧ pb.normB (pb.residual u (pb.coefficients u c)) < opts.atol.getD 1e-7 := by
  obtain ⟨h1, rfl, -⟩ := finish_ok h
  obtain ⟨k1, k2, k3, -, k5⟩ := configure_ok hs
  have hf := Newton.solve_fresh (P := pb) (I := I) hpost hI hpre rank0 s (by rw [k1]; exact hc0)
  have hn := ((Newton.C60_converged_partial pb rank0 s n (Or.inr (Or.inl k2)) h1).2.1 (k5 hcrit)).2.1
  obtain ⟨c, hc, hc1, hb⟩ := hf
  refine ⟨c, hc, ?_⟩
  rw [← hc1, ← hb, ← k3]
  exact hn

/-- C178: a displacement which `nitsche_custom` returns as converged (by the default criterion, the residual) is in
equilibrium with the plane up to `atol`: the work of the forces of the body and Nitsche's contact forces is at most
`atol` times the length of the virtual displacement. Whatever the linear solver does. What is missing: cells which are
not affine (C176), the incremental criterion (C60). For a run that converges see the examples in `OneSidedStep`. -/
theorem C178_plane_partial (hY : System.Valid D.Y) (haff : D.Y.affine = true) (hh : ∀ p ∈ D.Y.facets 0, 0 < D.size p.1)
    (hN : SurfaceBelow D.Y D.numDofs) (rank0 : Bool) (opts : Newton.OptDict)
    (hcrit : opts.crit = none ∨ opts.crit = some (some .residual)) (n : ℕ) (u : ℕ → ℝ)
    (h : nitscheCustom D rank0 opts = .ok (n, true, u)) :
    ObstacleEquilibrium D.Y (planePoint D.Y D.P D.size D.qp) (D.P.E * D.P.gamma) D.P.theta D.bulk D.numDofs u
      (opts.atol.getD 1e-7) := by
  unfold nitscheCustom at h
  by_cases hb : D.P.nitscheBc = true
  · rw [if_pos hb, planeCoeffs_ok hY] at h
    dsimp only at h
    generalize hs : configure (planeStart D) () opts = so at h
    obtain ⟨s, o⟩ := so
    cases o with
    | some e => simp at h
    | none =>
      obtain ⟨c, -, hc⟩ := converged_residual (pb := planeProblem D) (fun _ => rfl) (fun _ => rfl) (fun _ => True)
        (fun _ _ _ => trivial) trivial hcrit hs h
      have hc' : norm2 D.numDofs (planeResidual D u ()) < opts.atol.getD 1e-7 := hc
      intro v
      rw [← (C176_vector_partial hY haff hh D.numDofs hN u v).2]
      exact small_tested hc' v
  · rw [if_neg hb] at h
    simp at h

/-- C178: the same for `nitsche_rigid_surface_custom`, for cells of any kind. -/
theorem C178_surface_partial (hY : System.Valid D.Y) (hh : ∀ p ∈ D.Y.facets 0, 0 < D.size p.1)
    (hN : SurfaceBelow D.Y D.numDofs) (rank0 : Bool) (opts : Newton.OptDict)
    (hcrit : opts.crit = none ∨ opts.crit = some (some .residual)) (n : ℕ) (u : ℕ → ℝ)
    (h : nitscheRigidSurfaceCustom D rank0 opts = .ok (n, true, u)) :
    ObstacleEquilibrium D.Y (surfacePoint D.Y D.P D.size) (D.P.gamma * D.P.E) D.P.theta D.bulk D.numDofs u
      (opts.atol.getD 1e-7) := by
  unfold nitscheRigidSurfaceCustom at h
  by_cases hb : D.P.nitscheBc = true
  · obtain ⟨c0, h0, -⟩ := surfaceRows_ok hY
    rw [if_pos hb, h0] at h
    dsimp only at h
    generalize hs : configure (surfaceStart D) c0 opts = so at h
    obtain ⟨s, o⟩ := so
    cases o with
    | some e => simp at h
    | none =>
      obtain ⟨c, ⟨us, rfl⟩, hc⟩ := converged_residual (pb := surfaceProblem D) (fun _ => rfl) (fun _ => rfl)
        (fun c => ∃ us : List (ℕ → ℝ), c = us.foldl (fun c x => surfaceUpdate D x c) c0)
        (fun x c ⟨us, hus⟩ => ⟨us ++ [x], by rw [List.foldl_append, ← hus]; rfl⟩) ⟨[], rfl⟩ hcrit hs h
      have hc' : norm2 D.numDofs (surfaceResidual D u (surfaceUpdate D u
        (us.foldl (fun c x => surfaceUpdate D x c) c0))) < opts.atol.getD 1e-7 := hc
      intro v
      obtain ⟨c1, h1, -, h2⟩ := C177_vector hY hh D.numDofs hN us u v
      obtain rfl : c0 = c1 := Except.ok.inj (h0.symm.trans h1)
      rw [← h2]
      exact small_tested hc' v
  · rw [if_neg hb] at h
    simp at h

/-- C178: with `error_on_nonconvergence` a driver that returns has converged. -/
theorem C178_asserted (D : Data) (rank0 : Bool) (opts : Newton.OptDict) (he : opts.errorOn = some true) (n : ℕ) (conv : Bool)
    (u : ℕ → ℝ) (h : nitscheCustom D rank0 opts = .ok (n, conv, u) ∨ nitscheRigidSurfaceCustom D rank0 opts = .ok (n, conv, u)) :
    conv = true := by
  have key : ∀ {C : Type} (pb : Newton.Problem (ℕ → ℝ) (ℕ → ℝ) (ℕ × ℕ → ℝ) C) (x : ℕ → ℝ) (c : C)
      (s : Newton.St (ℕ → ℝ) (ℕ → ℝ) C), configure x c opts = (s, none) → finish pb rank0 s = .ok (n, conv, u) → conv = true := by
    intro C pb x c s hs hf
    obtain ⟨h1, -, h3⟩ := finish_ok hf
    obtain ⟨-, k2, -, k4, -⟩ := configure_ok hs
    refine h3 ?_
    rw [(Newton.solve_ready pb rank0 s n conv (Or.inr (Or.inl k2)) h1).2, k4, he]
    rfl
  rcases h with h | h
  · unfold nitscheCustom at h
    split at h
    · split at h
      · simp at h
      · split at h
        · simp at h
        · exact key _ _ _ _ (by assumption) h
    · simp at h
  · unfold nitscheRigidSurfaceCustom at h
    split at h
    · split at h
      · simp at h
      · split at h
        · simp at h
        · exact key _ _ _ _ (by assumption) h
    · simp at h

/-! ### C179: the contact force -/

/-- C179: for every theta the contact part of the residual, tested with a rigid translation, is the integral of the
contact pressure times the component of the translation towards the obstacle: the obstacle acts on the body with
pressures only, in the direction away from it. -/
theorem C179_resultant (Y : System Unit) (hone : UnitSum Y) (pt : ℕ → ℕ → ℕ → ℕ → ObstaclePoint)
    (hpt : ∀ e cell f q, (pt e cell f q).g = Y.gdim) (gamma theta : ℝ) (u c : ℕ → ℝ) :
    obstacleForm Y pt gamma theta u (translation Y c)
      = overSurface Y (fun e cell f q => (pt e cell f q).force gamma (valueAt Y cell f u q) (gradAt Y cell f u q)
          * (pt e cell f q).dot c) := by
  unfold obstacleForm
  refine overSurface_congr (fun e he cell f hp q hq => ?_)
  obtain ⟨o1, o2⟩ := hone e he cell f hp q hq
  have hv : ∀ k, ∀ a < Y.gdim, translation Y c (Y.gdim * Y.space.parent cell k + a) = c a := by
    intro k a ha
    unfold translation
    rw [Nat.mul_add_mod, Nat.mod_eq_of_lt ha]
  have e1 : (pt e cell f q).dot (valueAt Y cell f (translation Y c) q) = (pt e cell f q).dot c := by
    refine sum_congr rfl (fun a ha => ?_)
    rw [mem_range, hpt] at ha
    congr 1
    unfold valueAt
    rw [sum_congr rfl (fun k _ => by rw [hv k a ha]), ← sum_mul, o1, one_mul]
  have e2 : (pt e cell f q).stress (gradAt Y cell f (translation Y c) q) = 0 := by
    refine stress_zero (fun a ha b _ => ?_)
    rw [hpt] at ha
    unfold gradAt
    rw [sum_congr rfl (fun k _ => by rw [hv k a ha]), ← sum_mul, sum_comm,
      sum_eq_zero (fun j hj => by rw [← mul_sum, o2 j (mem_range.mp hj), mul_zero]), zero_mul]
  unfold ObstaclePoint.form ObstaclePoint.force
  rw [e1, e2]
  have e3 : ∀ x : ℝ, max 0 (-x) = -min 0 x := fun x => by
    rw [← max_neg_neg, neg_zero]
  rw [e3]; ring

theorem exO_one : UnitSum exO.Y := by
  intro e _ cell f _ q _
  refine ⟨?_, fun j hj => ?_⟩
  · show ∑ k ∈ range 3, (if k = 2 then (0 : ℝ) else 1 / 2) = 1
    norm_num [sum_range_succ]
  · have hj' : j < 2 := hj
    show ∑ k ∈ range 3, (if k = 0 then (-1 : ℝ) else if k = j + 1 then 1 else 0) = 0
    rcases (by omega : j = 0 ∨ j = 1) with rfl | rfl <;> norm_num [sum_range_succ]

example : UnitSum exO.Y ∧ ∀ e cell f q, (planePoint exO.Y exO.P exO.size exO.qp e cell f q).g = exO.Y.gdim :=
  ⟨exO_one, fun _ _ _ _ => rfl⟩

/-- C179: the contact part of the residual of `nitsche_custom` is a vertical force on the body, directed upwards: its
work in a translation by `c` is the total pressure times `-c_last`, and no pressure is negative. Affine cells (C176). -/
theorem C179_plane_partial (hY : System.Valid D.Y) (haff : D.Y.affine = true) (hh : ∀ p ∈ D.Y.facets 0, 0 < D.size p.1)
    (hγ : 0 ≤ D.P.E * D.P.gamma) (hw : ∀ p ∈ D.Y.facets 0, ∀ q < D.Y.nq, 0 ≤ D.Y.weights p.2 q)
    (hone : UnitSum D.Y) (N : ℕ) (hN : SurfaceBelow D.Y N) (u : ℕ → ℝ) :
    ∃ total : ℝ, 0 ≤ total ∧ ∀ c : ℕ → ℝ,
      ∑ d ∈ range N, (planeResidual D u () d - D.bulk u d) * translation D.Y c d = -(total * c (D.Y.gdim - 1)) := by
  refine ⟨overSurface D.Y (fun e cell f q => (planePoint D.Y D.P D.size D.qp e cell f q).force (D.P.E * D.P.gamma)
    (valueAt D.Y cell f u q) (gradAt D.Y cell f u q)), ?_, fun c => ?_⟩
  · have h0 : overSurface D.Y (fun _ _ _ _ => (0 : ℝ)) = 0 := by
      have := overSurface_mul (Y := D.Y) 0 (fun _ _ _ _ => (0 : ℝ))
      simpa using this
    rw [← h0]
    refine overSurface_le hw (fun e he cell f hp q hq => ?_)
    exact mul_nonneg (div_nonneg hγ (hh (cell, f) (List.mem_of_getElem? hp)).le) (le_max_left _ _)
  · have h := (C176_vector_partial hY haff hh N hN u (translation D.Y c)).2
    rw [C179_resultant D.Y hone _ (fun _ _ _ _ => rfl)] at h
    have e1 : ∑ d ∈ range N, (planeResidual D u () d - D.bulk u d) * translation D.Y c d
        = ∑ d ∈ range N, planeResidual D u () d * translation D.Y c d - ∑ d ∈ range N, D.bulk u d * translation D.Y c d := by
      rw [← sum_sub_distrib]
      exact sum_congr rfl (fun d _ => by ring)
    have e2 : ∀ e cell f q, (planePoint D.Y D.P D.size D.qp e cell f q).dot c = -c (D.Y.gdim - 1) := by
      intro e cell f q
      have hd : 0 < D.Y.gdim := hY.dim
      show ∑ a ∈ range D.Y.gdim, c a * (if a + 1 = D.Y.gdim then (-1 : ℝ) else 0) = _
      rw [sum_eq_single_of_mem (D.Y.gdim - 1) (mem_range.mpr (by omega)) (fun a ha hne => by
        have := mem_range.mp ha
        rw [if_neg (by omega), mul_zero]), if_pos (by omega)]
      ring
    rw [e1, h, add_sub_cancel_left]
    have e3 := overSurface_mul (Y := D.Y) (-c (D.Y.gdim - 1)) (fun e cell f q => (planePoint D.Y D.P D.size D.qp e cell f q).force (D.P.E * D.P.gamma)
      (valueAt D.Y cell f u q) (gradAt D.Y cell f u q))
    rw [overSurface_congr (fun e _ cell f _ q _ => by rw [e2, mul_comm]), e3]
    ring

example : 0 ≤ exO.P.E * exO.P.gamma ∧ (∀ p ∈ exO.Y.facets 0, ∀ q < exO.Y.nq, 0 ≤ exO.Y.weights p.2 q) :=
  ⟨exO_gamma.le, fun _ _ _ _ => zero_le_one⟩

/-- C179: the pressure is that of the body exactly where Signorini's conditions hold. -/
theorem C179_signorini (p : ObstaclePoint) (gamma : ℝ) (hγ : 0 < gamma) (hh : 0 < p.h) (U : ℕ → ℝ) (D : ℕ → ℕ → ℝ) :
    p.force gamma U D = -p.stress D ↔ p.Signorini U D := by
  unfold ObstaclePoint.force ObstaclePoint.Signorini ObstaclePoint.switch
  obtain ⟨σ, hσ⟩ : ∃ σ, σ = p.stress D := ⟨_, rfl⟩
  obtain ⟨k, hk⟩ : ∃ k, k = gamma / p.h := ⟨_, rfl⟩
  have hk0 : 0 < k := hk ▸ div_pos hγ hh
  have e : p.h / gamma = k⁻¹ := by rw [hk, inv_div]
  rw [← hσ, e, ← hk]
  have e2 : k * max 0 (-(k⁻¹ * σ + (p.clearance - p.dot U))) = max 0 (-σ - k * (p.clearance - p.dot U)) := by
    rw [mul_max_of_nonneg _ _ hk0.le, mul_zero]
    congr 1
    field_simp
    ring
  rw [e2]
  constructor
  · intro h
    rcases le_total 0 (-σ - k * (p.clearance - p.dot U)) with h1 | h1
    · rw [max_eq_right h1] at h
      have h2 : p.clearance - p.dot U = 0 := by
        have : k * (p.clearance - p.dot U) = 0 := by linarith
        exact (mul_eq_zero.mp this).resolve_left hk0.ne'
      refine ⟨by rw [h2] at h1; linarith, by linarith, ?_⟩
      rw [show p.dot U - p.clearance = 0 by linarith, mul_zero]
    · rw [max_eq_left h1] at h
      have h2 : σ = 0 := by linarith
      rw [h2] at h1 ⊢
      refine ⟨le_rfl, ?_, by ring⟩
      have : 0 ≤ k * (p.clearance - p.dot U) := by linarith
      have := nonneg_of_mul_nonneg_right this hk0
      linarith
  · rintro ⟨h1, h2, h3⟩
    rcases mul_eq_zero.mp h3 with h | h
    · rw [h, neg_zero, zero_sub]
      refine max_eq_left ?_
      have := mul_nonneg hk0.le (sub_nonneg.mpr h2)
      linarith
    · rw [show p.clearance - p.dot U = 0 by linarith, mul_zero, sub_zero]
      exact max_eq_right (by linarith)

/-- A point with size 1. -/
def exPt : ObstaclePoint := ⟨1, 1, 0, 1, 0, fun _ => 1, fun _ => 1⟩

example : exPt.Signorini (fun _ => 0) (fun _ _ => -1) ∧ 0 < exPt.h := by
  refine ⟨⟨?_, ?_, ?_⟩, one_pos⟩
  · unfold ObstaclePoint.stress ObstaclePoint.dot
    simp [exPt, Elasticity.traction_eq]
  · simp [ObstaclePoint.dot, exPt]
  · simp [ObstaclePoint.dot, exPt]

/-- C179: at a displacement which satisfies Signorini's conditions the contact form is the work of the contact stress,
whatever gamma and theta. -/
theorem C179_consistent (Y : System Unit) (pt : ℕ → ℕ → ℕ → ℕ → ObstaclePoint) (gamma theta : ℝ) (hγ : 0 < gamma) (u v : ℕ → ℝ)
    (hs : ∀ e < Y.localFacets 0, ∀ cell f, (Y.facets 0)[e]? = some (cell, f) → ∀ q < Y.nq,
      0 < (pt e cell f q).h ∧ (pt e cell f q).Signorini (valueAt Y cell f u q) (gradAt Y cell f u q)) :
    obstacleForm Y pt gamma theta u v = overSurface Y (fun e cell f q => -((pt e cell f q).stress (gradAt Y cell f u q)
      * (pt e cell f q).dot (valueAt Y cell f v q))) := by
  unfold obstacleForm
  refine overSurface_congr (fun e he cell f hp q hq => ?_)
  obtain ⟨h1, h2⟩ := hs e he cell f hp q hq
  have h := (C179_signorini _ gamma hγ h1 _ _).mpr h2
  have e3 : ∀ x : ℝ, max 0 (-x) = -min 0 x := fun x => by
    rw [← max_neg_neg, neg_zero]
  unfold ObstaclePoint.force at h
  rw [e3] at h
  unfold ObstaclePoint.form
  generalize (pt e cell f q).stress (gradAt Y cell f u q) = σ at *
  generalize min 0 ((pt e cell f q).switch gamma (valueAt Y cell f u q) (gradAt Y cell f u q)) = m at *
  have hm : m = (pt e cell f q).h / gamma * σ := by
    field_simp at h ⊢
    linarith
  rw [hm]
  field_simp
  ring

/-! ### C180: well-posedness -/

/-- C180: with a linear bulk `K u - l` whose stiffness dominates the contact stresses (for theta = -1: with a positive
definite stiffness), the residual of `nitsche_custom` vanishes at exactly one displacement. Affine cells (C176). -/
theorem C180_plane_partial (hY : System.Valid D.Y) (haff : D.Y.affine = true) (hh : ∀ p ∈ D.Y.facets 0, 0 < D.size p.1)
    (hγ : 0 < D.P.E * D.P.gamma) (hw : ∀ p ∈ D.Y.facets 0, ∀ q < D.Y.nq, 0 ≤ D.Y.weights p.2 q) (N : ℕ)
    (hN : SurfaceBelow D.Y N) (K : ℕ → ℕ → ℝ) (l : ℕ → ℝ) (hbulk : ∀ u, ∀ d < N, D.bulk u d = ∑ c ∈ range N, K d c * u c - l d)
    (hK : ObstacleCoercive D.Y (planePoint D.Y D.P D.size D.qp) (D.P.E * D.P.gamma) D.P.theta N K) :
    ∃! u : ℕ → ℝ, (∀ d, N ≤ d → u d = 0) ∧ ∀ d < N, planeResidual D u () d = 0 := by
  have hb : ∀ u v, ∑ d ∈ range N, contactVector D true (planeConsts D) (planeMat D u) d * v d
      = obstacleForm D.Y (planePoint D.Y D.P D.size D.qp) (D.P.E * D.P.gamma) D.P.theta u v := fun u v =>
    vector_tested hY true (Or.inr haff) (planeConsts D) (planeMat D u) _ u v (plane_rows hY u hh) N hN
  have h := obstacle_wellposed hw (fun e he cell f hp q hq => hh (cell, f) (List.mem_of_getElem? hp)) hγ hK _ hb l
  have e : ∀ u, ∀ d < N, planeResidual D u () d
      = ∑ c ∈ range N, K d c * u c - l d + contactVector D true (planeConsts D) (planeMat D u) d := by
    intro u d hd
    rw [planeResidual_eq hY, hbulk u d hd]; ring
  obtain ⟨u, ⟨h1, h2⟩, h3⟩ := h
  exact ⟨u, ⟨h1, fun d hd => (e u d hd).trans (h2 d hd)⟩, fun y ⟨hy1, hy2⟩ =>
    h3 y ⟨hy1, fun d hd => (e y d hd).symm.trans (hy2 d hd)⟩⟩

theorem exO_coercive (pt : ℕ → ℕ → ℕ → ℕ → ObstaclePoint) (gamma : ℝ) :
    ObstacleCoercive exO.Y pt gamma (-1) 6 (fun d c => if d = c then 1 else 0) := by
  intro v hv ⟨d, hd⟩
  have hd6 : d < 6 := by
    by_contra h
    exact hd (hv d (by omega))
  have e : ∑ d ∈ range 6, ∑ c ∈ range 6, v d * (if d = c then 1 else 0) * v c = ∑ d ∈ range 6, v d ^ 2 := by
    refine sum_congr rfl (fun d hd => ?_)
    simp only [mul_ite, mul_one, mul_zero, ite_mul, zero_mul]
    rw [sum_ite_eq, if_pos hd, sq]
  rw [e]
  have : v d ^ 2 ≤ ∑ d ∈ range 6, v d ^ 2 :=
    single_le_sum (f := fun d => v d ^ 2) (fun _ _ => sq_nonneg _) (mem_range.mpr hd6)
  have h2 : 0 < v d ^ 2 := by positivity
  have h3 : (1 + (-1 : ℝ)) ^ 2 / (4 * gamma) * stressSquare exO.Y pt v = 0 := by norm_num
  linarith

example : (∀ u, ∀ d < 6, exO.bulk u d = ∑ c ∈ range 6, (fun d c => if d = c then (1 : ℝ) else 0) d c * u c - (fun _ => 0) d)
    ∧ ObstacleCoercive exO.Y (planePoint exO.Y exO.P exO.size exO.qp) (exO.P.E * exO.P.gamma) exO.P.theta 6
      (fun d c => if d = c then 1 else 0) := by
  refine ⟨fun u d hd => ?_, exO_coercive _ _⟩
  simp [exO, hd]

/-- C180: the same for `nitsche_rigid_surface_custom`, with any array of coefficients the driver can have reached. -/
theorem C180_surface (hY : System.Valid D.Y) (hh : ∀ p ∈ D.Y.facets 0, 0 < D.size p.1)
    (hγ : 0 < D.P.gamma * D.P.E) (hw : ∀ p ∈ D.Y.facets 0, ∀ q < D.Y.nq, 0 ≤ D.Y.weights p.2 q) (N : ℕ)
    (hN : SurfaceBelow D.Y N) (K : ℕ → ℕ → ℝ) (l : ℕ → ℝ) (hbulk : ∀ u, ∀ d < N, D.bulk u d = ∑ c ∈ range N, K d c * u c - l d)
    (hK : ObstacleCoercive D.Y (surfacePoint D.Y D.P D.size) (D.P.gamma * D.P.E) D.P.theta N K)
    (c0 : Mat) (h0 : surfaceRows D = .ok c0) (us : List (ℕ → ℝ)) :
    ∃! u : ℕ → ℝ, (∀ d, N ≤ d → u d = 0)
      ∧ ∀ d < N, surfaceResidual D u (surfaceUpdate D u (us.foldl (fun c x => surfaceUpdate D x c) c0)) d = 0 := by
  have hF := surface_history hY h0 us
  generalize us.foldl (fun c x => surfaceUpdate D x c) c0 = c1 at *
  have hb : ∀ u v, ∑ d ∈ range N, contactVector D false (surfaceConsts D) (surfaceUpdate D u c1) d * v d
      = obstacleForm D.Y (surfacePoint D.Y D.P D.size) (D.P.gamma * D.P.E) D.P.theta u v := fun u v =>
    vector_tested hY false (Or.inl rfl) (surfaceConsts D) (surfaceUpdate D u c1) _ u v (surface_rows hY u hF hh) N hN
  have h := obstacle_wellposed hw (fun e he cell f hp q hq => hh (cell, f) (List.mem_of_getElem? hp)) hγ hK _ hb l
  have e : ∀ u, ∀ d < N, surfaceResidual D u (surfaceUpdate D u c1) d
      = ∑ c ∈ range N, K d c * u c - l d + contactVector D false (surfaceConsts D) (surfaceUpdate D u c1) d := by
    intro u d hd
    unfold surfaceResidual
    rw [hbulk u d hd]; ring
  obtain ⟨u, ⟨h1, h2⟩, h3⟩ := h
  exact ⟨u, ⟨h1, fun d hd => (e u d hd).trans (h2 d hd)⟩, fun y ⟨hy1, hy2⟩ =>
    h3 y ⟨hy1, fun d hd => (e y d hd).symm.trans (hy2 d hd)⟩⟩

example : (∃ c0, surfaceRows exO = .ok c0) ∧ 0 < exO.P.gamma * exO.P.E
    ∧ ObstacleCoercive exO.Y (surfacePoint exO.Y exO.P exO.size) (exO.P.gamma * exO.P.E) exO.P.theta 6
      (fun d c => if d = c then 1 else 0) := by
  obtain ⟨c, hc, -⟩ := surfaceRows_ok exO_valid
  exact ⟨⟨c, hc⟩, by simp [exO, exP], exO_coercive _ _⟩

/-- C180: under the same condition every linear system of the Newton solver has at most one solution: only zero is
mapped to zero. -/
theorem C180_newton_step_partial (hY : System.Valid D.Y) (haff : D.Y.affine = true) (hh : ∀ p ∈ D.Y.facets 0, 0 < D.size p.1)
    (hγ : 0 < D.P.E * D.P.gamma) (hw : ∀ p ∈ D.Y.facets 0, ∀ q < D.Y.nq, 0 ≤ D.Y.weights p.2 q) (N : ℕ)
    (hN : SurfaceBelow D.Y N) (u : ℕ → ℝ)
    (hK : ObstacleCoercive D.Y (planePoint D.Y D.P D.size D.qp) (D.P.E * D.P.gamma) D.P.theta N (D.stiff u))
    (w : ℕ → ℝ) (hw0 : ∀ d, N ≤ d → w d = 0)
    (h : ∀ d < N, ∑ c ∈ range N, planeJacobian D u () (d, c) * w c = 0) : w = 0 := by
  by_contra hne
  have hex : ∃ d, w d ≠ 0 := by
    by_contra h'
    push Not at h'
    exact hne (funext h')
  have h1 := hK w hw0 hex
  have h2 := (C176_matrix_partial hY haff hh hγ N hN u w w).2
  rw [sum_eq_zero (fun d hd => by rw [h d (mem_range.mp hd), zero_mul])] at h2
  have h3 := obstacleTangent_lower (pt := planePoint D.Y D.P D.size D.qp) hw
    (fun e he cell f hp q hq => hh (cell, f) (List.mem_of_getElem? hp)) hγ D.P.theta u w
  have e : ∑ d ∈ range N, ∑ c ∈ range N, w d * D.stiff u d c * w c = ∑ d ∈ range N, (∑ c ∈ range N, D.stiff u d c * w c) * w d := by
    refine sum_congr rfl (fun d _ => ?_)
    rw [sum_mul]
    exact sum_congr rfl (fun c _ => by ring)
  linarith

example : ObstacleCoercive exO.Y (planePoint exO.Y exO.P exO.size exO.qp) (exO.P.E * exO.P.gamma) exO.P.theta 6
    (exO.stiff fun _ => 0) := exO_coercive _ _

end

end Verif.OneSidedDriver
