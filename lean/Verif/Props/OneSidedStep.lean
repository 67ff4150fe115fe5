import Verif.Lemmas.FirstStep
import Verif.Props.OneSidedDriver

/-!
Properties C181 (one Newton step of the one-sided drivers; the plane as a rigid surface) and C176 (cells that are not affine).
-/

namespace Verif.OneSidedDriver

open Verif.ContactProblem Verif.Spec Verif.Kernels Verif.Assembly Finset

noncomputable section

variable {D : Data}

theorem form_step {Y : System Unit} {pt : ℕ → ℕ → ℕ → ℕ → ObstaclePoint} {gamma theta : ℝ} {u w : ℕ → ℝ}
    (h : SamePressed Y pt gamma u (fun d => u d + -1 * w d)) (v : ℕ → ℝ) :
    obstacleForm Y pt gamma theta (fun d => u d + -1 * w d) v
      = obstacleForm Y pt gamma theta u v - obstacleTangent Y pt gamma theta u w v := by
  unfold obstacleForm obstacleTangent
  rw [← overSurface_sub]
  refine overSurface_congr (fun e he cell f hp q hq => ?_)
  have h1 := h e he cell f hp q hq
  have hs : ∀ P : ObstaclePoint, P.switch gamma (valueAt Y cell f (fun d => u d + -1 * w d) q) (gradAt Y cell f (fun d => u d + -1 * w d) q)
      = P.switch gamma (valueAt Y cell f u q) (gradAt Y cell f u q)
        + -1 * (P.h / gamma * P.stress (gradAt Y cell f w q) - P.dot (valueAt Y cell f w q)) := fun P =>
    switch_lin (fun a _ => value_line cell f u w q a (-1)) (fun a _ b _ => grad_line cell f u w q a b (-1))
  have ht : ∀ P : ObstaclePoint, P.stress (gradAt Y cell f (fun d => u d + -1 * w d) q)
      = P.stress (gradAt Y cell f u q) + -1 * P.stress (gradAt Y cell f w q) := fun P =>
    stress_lin (fun a _ b _ => grad_line cell f u w q a b (-1))
  rw [hs] at h1
  unfold ObstaclePoint.form ObstaclePoint.tangent
  rw [hs, ht]
  generalize (pt e cell f q).switch gamma (valueAt Y cell f u q) (gradAt Y cell f u q) = s at *
  generalize (pt e cell f q).h / gamma * (pt e cell f q).stress (gradAt Y cell f w q) - (pt e cell f q).dot (valueAt Y cell f w q) = t at *
  by_cases hc : s < 0
  · rw [if_pos hc, min_eq_right hc.le, min_eq_right (h1.mp hc).le]; ring
  · rw [if_neg hc, min_eq_left (not_lt.mp hc), min_eq_left (not_lt.mp (fun h => hc (h1.mpr h)))]; ring

/-- The residual after a step with an exact solution of the linear system. -/
theorem step_zero {N : ℕ} {pt : ℕ → ℕ → ℕ → ℕ → ObstaclePoint} {gamma theta : ℝ} {K : ℕ → ℕ → ℝ} {l : ℕ → ℝ}
    (hbulk : ∀ u, ∀ d < N, D.bulk u d = ∑ c ∈ range N, K d c * u c - l d)
    (hstiff : ∀ u, ∀ d < N, ∀ c < N, D.stiff u d c = K d c) {u w : ℕ → ℝ} {R R1 : ℕ → ℝ} {J : ℕ × ℕ → ℝ}
    (hR : ∀ v, ∑ d ∈ range N, R d * v d = ∑ d ∈ range N, D.bulk u d * v d + obstacleForm D.Y pt gamma theta u v)
    (hR1 : ∀ v, ∑ d ∈ range N, R1 d * v d = ∑ d ∈ range N, D.bulk (fun d => u d + -1 * w d) d * v d
      + obstacleForm D.Y pt gamma theta (fun d => u d + -1 * w d) v)
    (hJ : ∀ v, ∑ d ∈ range N, (∑ c ∈ range N, J (d, c) * w c) * v d
      = ∑ d ∈ range N, (∑ c ∈ range N, D.stiff u d c * w c) * v d + obstacleTangent D.Y pt gamma theta u w v)
    (hsol : ∀ d < N, ∑ c ∈ range N, J (d, c) * w c = R d)
    (h : SamePressed D.Y pt gamma u (fun d => u d + -1 * w d)) (d : ℕ) (hd : d < N) : R1 d = 0 := by
  have key : ∀ v : ℕ → ℝ, ∑ d ∈ range N, R1 d * v d = 0 := by
    intro v
    have e1 : ∑ d ∈ range N, (∑ c ∈ range N, J (d, c) * w c) * v d = ∑ d ∈ range N, R d * v d :=
      sum_congr rfl (fun d hd => by rw [hsol d (mem_range.mp hd)])
    have e2 : ∑ d ∈ range N, D.bulk (fun d => u d + -1 * w d) d * v d
        = ∑ d ∈ range N, D.bulk u d * v d - ∑ d ∈ range N, (∑ c ∈ range N, D.stiff u d c * w c) * v d := by
      rw [← sum_sub_distrib]
      refine sum_congr rfl (fun d hd => ?_)
      have hd := mem_range.mp hd
      have e3 : ∑ c ∈ range N, D.stiff u d c * w c = ∑ c ∈ range N, K d c * w c :=
        sum_congr rfl (fun c hc => by rw [hstiff u d hd c (mem_range.mp hc)])
      rw [hbulk _ d hd, hbulk _ d hd, e3]
      have : ∑ c ∈ range N, K d c * (u c + -1 * w c) = ∑ c ∈ range N, K d c * u c - ∑ c ∈ range N, K d c * w c := by
        rw [← sum_sub_distrib]
        exact sum_congr rfl (fun c _ => by ring)
      rw [this]; ring
    rw [hR1, form_step h, e2]
    linarith [hR v, hJ v]
  have := key (fun c => if c = d then 1 else 0)
  simpa [hd] using this

theorem norm2_eq_zero {N : ℕ} {R : ℕ → ℝ} (h : ∀ d < N, R d = 0) : norm2 N R = 0 := by
  unfold norm2
  rw [sum_eq_zero (fun d hd => by rw [h d (mem_range.mp hd)]; ring), Real.sqrt_zero]

/-- Default or positive tolerances, at least one iteration, criterion of the residual. -/
theorem configure_run {C : Type} (x : ℕ → ℝ) (c : C) {opts : Newton.OptDict}
    (hcrit : opts.crit = none ∨ opts.crit = some (some .residual)) (hatol : ∀ a ∈ opts.atol, 0 < a)
    (hrtol : ∀ a ∈ opts.rtol, 0 < a) (hmax : ∀ n ∈ opts.maxIt, 1 ≤ n) :
    ∃ s, configure x c opts = (s, none) ∧ s.x = x ∧ s.coeffs = c ∧ s.dx = none ∧ s.relax ≠ none ∧ s.opts.crit = .residual
      ∧ s.initialResidual = 0 ∧ 1 ≤ s.opts.maxIt ∧ 0 < s.opts.atol ∧ 0 < s.opts.rtol := by
  unfold configure
  obtain ⟨atol, rtol, crit, maxIt, errorOn, relax⟩ := opts
  dsimp only at *
  rcases hcrit with rfl | rfl <;> rcases atol with _ | a <;> rcases rtol with _ | r <;> rcases maxIt with _ | m <;>
    rcases errorOn with _ | e <;> rcases relax with _ | y <;>
    simp [Newton.setNewtonOptions, Newton.St.init, Newton.Opts.default] at * <;> norm_num <;> (try tauto)

/-- C181: let the bulk be linear, and let the first linear system of `nitsche_custom` be solved exactly, with a nonzero
step. If at the displacement reached by it the same points press against the plane as at the initial guess, then the
driver returns this displacement, after one iteration and as converged, and it is in equilibrium exactly, whatever the
tolerances. Affine cells (C176). -/
theorem C181_plane_partial (hY : System.Valid D.Y) (haff : D.Y.affine = true) (hh : ∀ p ∈ D.Y.facets 0, 0 < D.size p.1)
    (hγ : 0 < D.P.E * D.P.gamma) (hN : SurfaceBelow D.Y D.numDofs) (hbc : D.P.nitscheBc = true) (K : ℕ → ℕ → ℝ) (l : ℕ → ℝ)
    (hbulk : ∀ u, ∀ d < D.numDofs, D.bulk u d = ∑ c ∈ range D.numDofs, K d c * u c - l d)
    (hstiff : ∀ u, ∀ d < D.numDofs, ∀ c < D.numDofs, D.stiff u d c = K d c) (rank0 : Bool) (opts : Newton.OptDict)
    (hcrit : opts.crit = none ∨ opts.crit = some (some .residual)) (hatol : ∀ a ∈ opts.atol, 0 < a)
    (hrtol : ∀ a ∈ opts.rtol, 0 < a) (hmax : ∀ n ∈ opts.maxIt, 1 ≤ n) (dx : ℕ → ℝ) (its : ℕ) (reason : ℤ)
    (hlin : D.linSolve (planeJacobian D (planeStart D) ()) (planeResidual D (planeStart D) ()) 0 = (dx, its, reason))
    (hreason : 0 < reason) (hne : norm2 D.numDofs dx ≠ 0)
    (hsol : ∀ d < D.numDofs, ∑ c ∈ range D.numDofs, planeJacobian D (planeStart D) () (d, c) * dx c
      = planeResidual D (planeStart D) () d)
    (hst : SamePressed D.Y (planePoint D.Y D.P D.size D.qp) (D.P.E * D.P.gamma) (planeStart D)
      (fun d => planeStart D d + -1 * dx d)) :
    nitscheCustom D rank0 opts = .ok (1, true, fun d => planeStart D d + -1 * dx d)
    ∧ ObstacleEquilibrium D.Y (planePoint D.Y D.P D.size D.qp) (D.P.E * D.P.gamma) D.P.theta D.bulk D.numDofs
      (fun d => planeStart D d + -1 * dx d) 0 := by
  have hz : ∀ d < D.numDofs, planeResidual D (fun d => planeStart D d + -1 * dx d) () d = 0 :=
    step_zero hbulk hstiff (fun v => (C176_vector_partial hY haff hh D.numDofs hN _ v).2)
      (fun v => (C176_vector_partial hY haff hh D.numDofs hN _ v).2)
      (fun v => (C176_matrix_partial hY haff hh hγ D.numDofs hN _ dx v).2) hsol hst
  obtain ⟨s, h1, h2, h3, h4, h5, h6, h7, h8, h9, h10⟩ := configure_run (planeStart D) () hcrit hatol hrtol hmax
  obtain ⟨s', k1, k2⟩ := Newton.solve_first_step (planeProblem D) rank0 s (fun _ => rfl) (fun _ => rfl) h5 h6 h7 h8 h9 h10 ()
    rfl dx its reason (by rw [h2, h4]; exact hlin) hreason (fun d => planeStart D d + -1 * dx d) (by rw [h2]; rfl)
    (norm2_eq_zero hz) (Real.sqrt_nonneg _) hne
  refine ⟨?_, fun v => ?_⟩
  · unfold nitscheCustom
    rw [if_pos hbc, planeCoeffs_ok hY]
    dsimp only
    rw [h1]
    dsimp only
    unfold finish
    rw [k1]
    simp [k2]
  · rw [← (C176_vector_partial hY haff hh D.numDofs hN _ v).2, sum_eq_zero (fun d hd => by rw [hz d (mem_range.mp hd), zero_mul])]
    simp

/-- C181: the same for `nitsche_rigid_surface_custom`, for cells of any kind. -/
theorem C181_surface (hY : System.Valid D.Y) (hh : ∀ p ∈ D.Y.facets 0, 0 < D.size p.1)
    (hγ : 0 < D.P.gamma * D.P.E) (hN : SurfaceBelow D.Y D.numDofs) (hbc : D.P.nitscheBc = true) (K : ℕ → ℕ → ℝ) (l : ℕ → ℝ)
    (hbulk : ∀ u, ∀ d < D.numDofs, D.bulk u d = ∑ c ∈ range D.numDofs, K d c * u c - l d)
    (hstiff : ∀ u, ∀ d < D.numDofs, ∀ c < D.numDofs, D.stiff u d c = K d c) (rank0 : Bool) (opts : Newton.OptDict)
    (hcrit : opts.crit = none ∨ opts.crit = some (some .residual)) (hatol : ∀ a ∈ opts.atol, 0 < a)
    (hrtol : ∀ a ∈ opts.rtol, 0 < a) (hmax : ∀ n ∈ opts.maxIt, 1 ≤ n) (c0 : Mat) (h0 : surfaceRows D = .ok c0) (c1 : Mat)
    (hc1 : c1 = surfaceUpdate D (surfaceStart D) c0) (dx : ℕ → ℝ) (its : ℕ) (reason : ℤ)
    (hlin : D.linSolve (surfaceJacobian D (surfaceStart D) c1) (surfaceResidual D (surfaceStart D) c1) 0 = (dx, its, reason))
    (hreason : 0 < reason) (hne : norm2 D.numDofs dx ≠ 0)
    (hsol : ∀ d < D.numDofs, ∑ c ∈ range D.numDofs, surfaceJacobian D (surfaceStart D) c1 (d, c) * dx c
      = surfaceResidual D (surfaceStart D) c1 d)
    (hst : SamePressed D.Y (surfacePoint D.Y D.P D.size) (D.P.gamma * D.P.E) (surfaceStart D)
      (fun d => surfaceStart D d + -1 * dx d)) :
    nitscheRigidSurfaceCustom D rank0 opts = .ok (1, true, fun d => surfaceStart D d + -1 * dx d)
    ∧ ObstacleEquilibrium D.Y (surfacePoint D.Y D.P D.size) (D.P.gamma * D.P.E) D.P.theta D.bulk D.numDofs
      (fun d => surfaceStart D d + -1 * dx d) 0 := by
  subst hc1
  have hv : ∀ (us : List (ℕ → ℝ)) (u v : ℕ → ℝ), ∑ d ∈ range D.numDofs, surfaceResidual D u (surfaceUpdate D u (us.foldl (fun c x => surfaceUpdate D x c) c0)) d * v d
      = ∑ d ∈ range D.numDofs, D.bulk u d * v d
        + obstacleForm D.Y (surfacePoint D.Y D.P D.size) (D.P.gamma * D.P.E) D.P.theta u v := by
    intro us u v
    obtain ⟨c, k1, -, k2⟩ := C177_vector hY hh D.numDofs hN us u v
    obtain rfl : c0 = c := Except.ok.inj (h0.symm.trans k1)
    exact k2
  have hm : ∀ v, ∑ d ∈ range D.numDofs, (∑ c ∈ range D.numDofs,
        surfaceJacobian D (surfaceStart D) (surfaceUpdate D (surfaceStart D) c0) (d, c) * dx c) * v d
      = ∑ d ∈ range D.numDofs, (∑ c ∈ range D.numDofs, D.stiff (surfaceStart D) d c * dx c) * v d
        + obstacleTangent D.Y (surfacePoint D.Y D.P D.size) (D.P.gamma * D.P.E) D.P.theta (surfaceStart D) dx v := by
    intro v
    obtain ⟨c, k1, -, k2⟩ := C177_matrix hY hh hγ D.numDofs hN [] (surfaceStart D) dx v
    obtain rfl : c0 = c := Except.ok.inj (h0.symm.trans k1)
    exact k2
  have hz : ∀ d < D.numDofs, surfaceResidual D (fun d => surfaceStart D d + -1 * dx d)
      (surfaceUpdate D (fun d => surfaceStart D d + -1 * dx d) (surfaceUpdate D (surfaceStart D) c0)) d = 0 :=
    step_zero hbulk hstiff (hv [] _) (hv [surfaceStart D] _) hm hsol hst
  obtain ⟨s, h1, h2, h3, h4, h5, h6, h7, h8, h9, h10⟩ := configure_run (surfaceStart D) c0 hcrit hatol hrtol hmax
  obtain ⟨s', k1, k2⟩ := Newton.solve_first_step (surfaceProblem D) rank0 s (fun _ => rfl) (fun _ => rfl) h5 h6 h7 h8 h9 h10
    (surfaceUpdate D (surfaceStart D) c0) (by rw [h2, h3]; rfl) dx its reason (by rw [h2, h4]; exact hlin) hreason
    (fun d => surfaceStart D d + -1 * dx d) (by rw [h2]; rfl)
    (norm2_eq_zero hz) (Real.sqrt_nonneg _) hne
  refine ⟨?_, fun v => ?_⟩
  · unfold nitscheRigidSurfaceCustom
    rw [if_pos hbc, h0]
    dsimp only
    rw [h1]
    dsimp only
    unfold finish
    rw [k1]
    simp [k2]
  · rw [← hv [surfaceStart D] _ v]
    have : ∑ d ∈ range D.numDofs, surfaceResidual D (fun d => surfaceStart D d + -1 * dx d) (surfaceUpdate D
        (fun d => surfaceStart D d + -1 * dx d) ([surfaceStart D].foldl (fun c x => surfaceUpdate D x c) c0)) d * v d = 0 :=
      sum_eq_zero (fun d hd => by
        have h := hz d (mem_range.mp hd)
        rw [List.foldl_cons, List.foldl_nil, h, zero_mul])
    rw [this]
    simp

theorem flat_point (hY : System.Valid D.Y) (hflat : FlatSurface D.Y D.P D.qp) :
    ∀ e < D.Y.localFacets 0, ∀ cell f, (D.Y.facets 0)[e]? = some (cell, f) → ∀ q < D.Y.nq,
      (∀ x, (surfacePoint D.Y D.P D.size e cell f q).dot x = (planePoint D.Y D.P D.size D.qp e cell f q).dot x)
      ∧ (surfacePoint D.Y D.P D.size e cell f q).clearance = (planePoint D.Y D.P D.size D.qp e cell f q).clearance := by
  intro e he cell f hp q hq
  have hg := hY.dim
  constructor
  · intro x
    unfold ObstaclePoint.dot
    refine sum_congr rfl (fun a ha => ?_)
    have := (hflat e he q hq a (mem_range.mp ha)).1
    show x a * -(D.Y.ny () 0).v e (q * D.Y.gdim + a) = x a * (if a + 1 = D.Y.gdim then -1 else 0)
    rw [this]; split <;> simp
  · show ∑ a ∈ range D.Y.gdim, (D.Y.gap () 0).v e (q * D.Y.gdim + a) * -(D.Y.ny () 0).v e (q * D.Y.gdim + a)
      = D.qp ((e * D.Y.nq + q) * D.Y.gdim + (D.Y.gdim - 1)) - (-D.P.planeLoc)
    rw [sum_eq_single (D.Y.gdim - 1)]
    · have := hflat e he q hq (D.Y.gdim - 1) (by omega)
      rw [this.1, this.2 (by omega), if_pos (by omega)]; ring
    · intro a ha hne
      have ha := mem_range.mp ha
      rw [(hflat e he q hq a ha).1, if_neg (by omega)]; simp
    · intro h; exact absurd (mem_range.mpr (by omega)) h

theorem flat_switch (hY : System.Valid D.Y) (hflat : FlatSurface D.Y D.P D.qp) :
    ∀ e < D.Y.localFacets 0, ∀ cell f, (D.Y.facets 0)[e]? = some (cell, f) → ∀ q < D.Y.nq, ∀ U E,
      (surfacePoint D.Y D.P D.size e cell f q).switch (D.P.gamma * D.P.E) U E
        = (planePoint D.Y D.P D.size D.qp e cell f q).switch (D.P.E * D.P.gamma) U E := by
  intro e he cell f hp q hq U E
  obtain ⟨h1, h2⟩ := flat_point hY hflat e he cell f hp q hq
  unfold ObstaclePoint.switch ObstaclePoint.stress
  rw [h1, h1, h2, mul_comm D.P.gamma]
  rfl

/-- C181: for a flat rigid surface both drivers assemble the same residual and the same matrix, as functions of the
displacement (with the same cell sizes). Affine cells (C176). -/
theorem C181_flat_partial (hY : System.Valid D.Y) (haff : D.Y.affine = true) (hh : ∀ p ∈ D.Y.facets 0, 0 < D.size p.1)
    (hγ : 0 < D.P.E * D.P.gamma) (hN : SurfaceBelow D.Y D.numDofs) (hflat : FlatSurface D.Y D.P D.qp)
    (us : List (ℕ → ℝ)) (u : ℕ → ℝ) :
    ∃ c0, surfaceRows D = .ok c0
    ∧ (∀ d < D.numDofs, surfaceResidual D u (surfaceUpdate D u (us.foldl (fun c x => surfaceUpdate D x c) c0)) d
      = planeResidual D u () d)
    ∧ ∀ d < D.numDofs, ∀ c < D.numDofs, surfaceJacobian D u (surfaceUpdate D u (us.foldl (fun c x => surfaceUpdate D x c) c0)) (d, c)
      = planeJacobian D u () (d, c) := by
  have hpt := flat_point hY hflat
  have hsw := flat_switch hY hflat
  have hst : ∀ e < D.Y.localFacets 0, ∀ cell f, (D.Y.facets 0)[e]? = some (cell, f) → ∀ q < D.Y.nq, ∀ E,
      (surfacePoint D.Y D.P D.size e cell f q).stress E = (planePoint D.Y D.P D.size D.qp e cell f q).stress E :=
    fun e he cell f hp q hq E => (hpt e he cell f hp q hq).1 _
  have hform : ∀ v, obstacleForm D.Y (surfacePoint D.Y D.P D.size) (D.P.gamma * D.P.E) D.P.theta u v
      = obstacleForm D.Y (planePoint D.Y D.P D.size D.qp) (D.P.E * D.P.gamma) D.P.theta u v := by
    intro v
    refine overSurface_congr (fun e he cell f hp q hq => ?_)
    unfold ObstaclePoint.form
    rw [hsw e he cell f hp q hq, hst e he cell f hp q hq, hst e he cell f hp q hq, (hpt e he cell f hp q hq).1,
      mul_comm D.P.gamma]
    rfl
  have htan : ∀ w v, obstacleTangent D.Y (surfacePoint D.Y D.P D.size) (D.P.gamma * D.P.E) D.P.theta u w v
      = obstacleTangent D.Y (planePoint D.Y D.P D.size D.qp) (D.P.E * D.P.gamma) D.P.theta u w v := by
    intro w v
    refine overSurface_congr (fun e he cell f hp q hq => ?_)
    unfold ObstaclePoint.tangent
    rw [hsw e he cell f hp q hq, hst e he cell f hp q hq, hst e he cell f hp q hq, (hpt e he cell f hp q hq).1,
      (hpt e he cell f hp q hq).1, mul_comm D.P.gamma]
    rfl
  obtain ⟨c0, h0, -⟩ := surfaceRows_ok hY
  refine ⟨c0, h0, fun d hd => ?_, fun d hd c hc => ?_⟩
  · obtain ⟨c1, k1, -, k2⟩ := C177_vector hY hh D.numDofs hN us u (fun c => if c = d then 1 else 0)
    obtain rfl : c0 = c1 := Except.ok.inj (h0.symm.trans k1)
    have k3 := (C176_vector_partial hY haff hh D.numDofs hN u (fun c => if c = d then 1 else 0)).2
    rw [hform, ← k3] at k2
    simpa [hd] using k2
  · obtain ⟨c1, k1, -, k2⟩ := C177_matrix hY hh (by rw [mul_comm]; exact hγ) D.numDofs hN us u (fun i => if i = c then 1 else 0)
      (fun i => if i = d then 1 else 0)
    obtain rfl : c0 = c1 := Except.ok.inj (h0.symm.trans k1)
    have k3 := (C176_matrix_partial hY haff hh hγ D.numDofs hN u (fun i => if i = c then 1 else 0)
      (fun i => if i = d then 1 else 0)).2
    rw [htan, ← k3] at k2
    simpa [hd, hc] using k2

/-! ### a run with contact -/

/-- Stress of a translation. -/
theorem translation_stress {Y : System Unit} (hone : UnitSum Y) (e : ℕ) (he : e < Y.localFacets 0) (cell f : ℕ)
    (hp : (Y.facets 0)[e]? = some (cell, f)) (q : ℕ) (hq : q < Y.nq) (p : ObstaclePoint) (hg : p.g = Y.gdim) (c : ℕ → ℝ) :
    p.stress (gradAt Y cell f (translation Y c) q) = 0 := by
  obtain ⟨o1, o2⟩ := hone e he cell f hp q hq
  have hv : ∀ k, ∀ a < Y.gdim, translation Y c (Y.gdim * Y.space.parent cell k + a) = c a := by
    intro k a ha
    unfold translation
    rw [Nat.mul_add_mod, Nat.mod_eq_of_lt ha]
  refine stress_zero (fun a ha b _ => ?_)
  rw [hg] at ha
  unfold gradAt
  rw [sum_congr rfl (fun k _ => by rw [hv k a ha]), ← sum_mul, sum_comm,
    sum_eq_zero (fun j hj => by rw [← mul_sum, o2 j (mem_range.mp hj), mul_zero]), zero_mul]

theorem translation_switch {Y : System Unit} (hone : UnitSum Y) (e : ℕ) (he : e < Y.localFacets 0) (cell f : ℕ)
    (hp : (Y.facets 0)[e]? = some (cell, f)) (q : ℕ) (hq : q < Y.nq) (p : ObstaclePoint) (hg : p.g = Y.gdim) (gamma : ℝ) (c : ℕ → ℝ) :
    p.switch gamma (valueAt Y cell f (translation Y c) q) (gradAt Y cell f (translation Y c) q) = p.clearance - p.dot c := by
  obtain ⟨o1, o2⟩ := hone e he cell f hp q hq
  have hv : ∀ k, ∀ a < Y.gdim, translation Y c (Y.gdim * Y.space.parent cell k + a) = c a := by
    intro k a ha
    unfold translation
    rw [Nat.mul_add_mod, Nat.mod_eq_of_lt ha]
  have e1 : p.dot (valueAt Y cell f (translation Y c) q) = p.dot c := by
    refine sum_congr rfl (fun a ha => ?_)
    rw [mem_range, hg] at ha
    congr 1
    unfold valueAt
    rw [sum_congr rfl (fun k _ => by rw [hv k a ha]), ← sum_mul, o1, one_mul]
  have e2 := translation_stress hone e he cell f hp q hq p hg c
  unfold ObstaclePoint.switch
  rw [e1, e2]; ring

/-- What the first step subtracts from the initial guess. -/
def exStep (d : ℕ) : ℝ := if d % 2 = 1 then 1 / 100 else 0

/-- The body of the example, its initial guess the same for both drivers. -/
def exB : Data := { exO with P := { exP with disp := 1.01 } }

/-- The displacement in equilibrium: down by 1.02, 0.02 below the plane. -/
def exEnd (d : ℕ) : ℝ := planeStart exB d + -1 * exStep d

/-- The body with the load that holds it in `exEnd`, and a linear solver that finds the step. -/
def exC : Data := { exB with
  bulk := fun u d => u d - planeResidual exB exEnd () d
  linSolve := fun _ _ _ => (exStep, 1, 1) }

theorem exB_start : planeStart exB = translation exO.Y (fun a => if a = 1 then -1.01 else 0) := by
  funext d
  show (if d % 2 = 1 then (-0.01 - 1 : ℝ) else 0) = if d % 2 = 1 then -1.01 else 0
  norm_num

theorem exB_end : exEnd = translation exO.Y (fun a => if a = 1 then -1.02 else 0) := by
  funext d
  unfold exEnd
  rw [exB_start]
  show (if d % 2 = 1 then (-1.01 : ℝ) else 0) + -1 * (if d % 2 = 1 then 1 / 100 else 0) = if d % 2 = 1 then -1.02 else 0
  split <;> norm_num

theorem exB_same : SamePressed exB.Y (planePoint exB.Y exB.P exB.size exB.qp) (exB.P.E * exB.P.gamma) (planeStart exB)
    (fun d => planeStart exB d + -1 * exStep d) := by
  intro e he cell f hp q hq
  rw [show (fun d => planeStart exB d + -1 * exStep d) = exEnd from rfl, exB_start, exB_end]
  have h := fun c => translation_switch exO_one e he cell f hp q hq (planePoint exB.Y exB.P exB.size exB.qp e cell f q) rfl
    (exB.P.E * exB.P.gamma) c
  have hd : ∀ t : ℝ, (planePoint exB.Y exB.P exB.size exB.qp e cell f q).dot (fun a => if a = 1 then t else 0) = -t := by
    intro t
    show ∑ a ∈ range 2, (if a = 1 then t else 0) * (if a + 1 = 2 then -1 else 0) = -t
    simp [sum_range_succ]
  have hc : (planePoint exB.Y exB.P exB.size exB.qp e cell f q).clearance = 1 := by
    show (0 : ℝ) - (-1) = 1
    norm_num
  have h1 := h (fun a => if a = 1 then -1.01 else 0)
  have h2 := h (fun a => if a = 1 then -1.02 else 0)
  rw [hd, hc] at h1 h2
  constructor
  · intro _
    refine lt_of_eq_of_lt h2 ?_
    norm_num
  · intro _
    refine lt_of_eq_of_lt h1 ?_
    norm_num

theorem exC_residual (u : ℕ → ℝ) (d : ℕ) : planeResidual exC u () d = planeResidual exB u () d - planeResidual exB exEnd () d := by
  rw [planeResidual_eq (D := exC) exO_valid, planeResidual_eq (D := exB) exO_valid u]
  have h1 : contactVector exC true (planeConsts exC) (planeMat exC u) = contactVector exB true (planeConsts exB) (planeMat exB u) := rfl
  have h2 : exC.bulk u d = u d - planeResidual exB exEnd () d := rfl
  have h3 : exB.bulk u d = u d := rfl
  rw [h1, h2, h3]
  ring

theorem exC_solves (d : ℕ) (hd : d < 6) :
    ∑ c ∈ range 6, planeJacobian exC (planeStart exC) () (d, c) * exStep c = planeResidual exC (planeStart exC) () d := by
  rw [exC_residual]
  have hs : planeStart exC = planeStart exB := rfl
  rw [hs]
  have hm := (C176_matrix_partial (D := exC) exO_valid rfl exO_size exO_gamma 6 exO_below (planeStart exB) exStep
    (fun i => if i = d then 1 else 0)).2
  have hv := fun u => (C176_vector_partial (D := exB) exO_valid rfl exO_size 6 exO_below u (fun i => if i = d then 1 else 0)).2
  have hst : ∑ c ∈ range 6, exC.stiff (planeStart exB) d c * exStep c = exStep d := by
    show ∑ c ∈ range 6, (if d = c then (1 : ℝ) else 0) * exStep c = exStep d
    simp [hd]
  have hb : ∀ u, exB.bulk u d = u d := fun u => rfl
  simp only [mul_ite, mul_one, mul_zero, sum_ite_eq', mem_range, hd, if_true, hst, hb] at hm hv
  rw [hm, hv, hv]
  have hf := form_step (theta := exB.P.theta) exB_same (fun i => if i = d then 1 else 0)
  have he : exEnd = fun d => planeStart exB d + -1 * exStep d := rfl
  have he' : exEnd d = planeStart exB d + -1 * exStep d := rfl
  have ht : obstacleTangent exC.Y (planePoint exC.Y exC.P exC.size exC.qp) (exC.P.E * exC.P.gamma) exC.P.theta (planeStart exB)
      exStep (fun i => if i = d then 1 else 0) = obstacleTangent exB.Y (planePoint exB.Y exB.P exB.size exB.qp)
      (exB.P.E * exB.P.gamma) exB.P.theta (planeStart exB) exStep (fun i => if i = d then 1 else 0) := rfl
  rw [ht, he', he, hf]
  ring

theorem exC_step : norm2 6 exStep ≠ 0 := by
  unfold norm2
  refine (Real.sqrt_pos.mpr ?_).ne'
  norm_num [sum_range_succ, exStep]

theorem exC_bulk (u : ℕ → ℝ) (d : ℕ) (hd : d < 6) :
    exC.bulk u d = ∑ c ∈ range 6, (fun d c => if d = c then (1 : ℝ) else 0) d c * u c - planeResidual exB exEnd () d := by
  show u d - _ = _
  simp [hd]

/-- Hypotheses of `C181_plane_partial` and, with its conclusion, of `C178_plane_partial`: a run in which the body is
pressed against the plane. -/
example : SamePressed exC.Y (planePoint exC.Y exC.P exC.size exC.qp) (exC.P.E * exC.P.gamma) (planeStart exC)
      (fun d => planeStart exC d + -1 * exStep d)
    ∧ nitscheCustom exC true {} = .ok (1, true, exEnd) :=
  ⟨exB_same, (C181_plane_partial (D := exC) exO_valid rfl exO_size exO_gamma exO_below rfl _ _ exC_bulk
    (fun u d _ c _ => rfl) true {} (Or.inl rfl) (by simp) (by simp) (by simp) exStep 1 1 rfl one_pos exC_step exC_solves exB_same).1⟩

theorem exB_flat : FlatSurface exB.Y exB.P exB.qp := by
  intro e _ q hq a ha
  have hq' : q < 1 := hq
  have ha' : a < 2 := ha
  obtain rfl : q = 0 := by omega
  constructor
  · show (if 0 * 2 + a = 1 then (1 : ℝ) else 0) = if a + 1 = 2 then 1 else 0
    rcases (by omega : a = 0 ∨ a = 1) with rfl | rfl <;> simp
  · intro h
    have h' : a + 1 = 2 := h
    obtain rfl : a = 1 := by omega
    show (if 0 * 2 + 1 = 1 then -(1 : ℝ) else if 0 * 2 + 1 = 0 then 0 else 0) = -1 - 0
    simp

/-- Hypotheses of `C181_flat_partial`. -/
example : FlatSurface exO.Y exO.P exO.qp ∧ System.Valid exO.Y ∧ exO.Y.affine = true ∧ SurfaceBelow exO.Y 6 :=
  ⟨exB_flat, exO_valid, rfl, exO_below⟩

theorem exC_surfaceStart : surfaceStart exC = planeStart exC := by
  funext d
  show (if d % 2 = 1 then (-1.01 : ℝ) else 0) = if d % 2 = 1 then -0.01 - 1 else 0
  norm_num

/-- Hypotheses of `C181_surface` and, with its conclusion, of `C178_surface_partial`. -/
example : nitscheRigidSurfaceCustom exC true {} = .ok (1, true, exEnd) := by
  obtain ⟨c0, h0, h1, h2⟩ := C181_flat_partial (D := exC) exO_valid rfl exO_size exO_gamma exO_below exB_flat [] (planeStart exC)
  have h := (C181_surface (D := exC) exO_valid exO_size (by simp [exC, exB, exP]) exO_below rfl _ _ exC_bulk
    (fun u d _ c _ => rfl) true {} (Or.inl rfl) (by simp) (by simp) (by simp) c0 h0 _ rfl exStep 1 1 rfl one_pos exC_step ?_ ?_).1
  · rw [exC_surfaceStart] at h
    exact h
  · intro d hd
    rw [exC_surfaceStart]
    refine (sum_congr rfl (fun c hc => ?_)).trans ((exC_solves d hd).trans (h1 d hd).symm)
    exact congrArg (· * exStep c) (h2 d hd c (mem_range.mp hc))
  · rw [exC_surfaceStart]
    intro e he cell f hp q hq
    rw [flat_switch (D := exC) exO_valid exB_flat e he cell f hp q hq, flat_switch (D := exC) exO_valid exB_flat e he cell f hp q hq]
    exact exB_same e he cell f hp q hq

/-! ### C176: cells that are not affine -/

/-- The example as a cell that is not affine, with `nu = 1/4` and `j` in the uninitialised memory. -/
def exJ (j : ℝ) : Data := { exO with Y := { exR 1 0 with affine := false }, P := { exP with nu := 1 / 4 }, junk := fun _ => j }

theorem exJ_valid (j : ℝ) : System.Valid (exJ j).Y :=
  ⟨Nat.one_pos, Nat.two_pos, Nat.one_pos, (exR_valid 1 0).cell, (exR_valid 1 0).loc, (exR_valid 1 0).gap, (exR_valid 1 0).nx,
    (exR_valid 1 0).ny, ⟨rfl, rfl⟩, (exR_valid 1 0).search, (exR_valid 1 0).cells, (exR_valid 1 0).shared, fun h => by cases h⟩

/-- C176 fails on cells that are not affine: two runs of the assembly with the same mesh, parameters and displacement
(the initial guess), which differ only in the content of uninitialised memory, give different residuals. -/
theorem C176_uninitialised_violated : ∃ D D' : Data, System.Valid D.Y ∧ D.Y.affine = false
    ∧ D' = { D with junk := D'.junk } ∧ (∀ p ∈ D.Y.facets 0, 0 < D.size p.1) ∧ SurfaceBelow D.Y D.numDofs
    ∧ ∃ d < D.numDofs, planeResidual D (planeStart D) () d ≠ planeResidual D' (planeStart D') () d := by
  refine ⟨exJ 0, exJ 1, exJ_valid 0, rfl, rfl, exO_size, exO_below, 2, (by show 2 < 6; omega), ?_⟩
  obtain ⟨u, hu⟩ : ∃ u, u = planeStart (exJ 0) := ⟨_, rfl⟩
  have hu' : planeStart (exJ 1) = u := hu.symm
  rw [hu', ← hu]
  obtain ⟨r, hr⟩ : ∃ r, r = dataRow (flat (planeMat (exJ 0) u)) (planeMat (exJ 0) u).cols 0 := ⟨_, rfl⟩
  obtain ⟨K, hK⟩ : ∃ K, K = (exJ 0).Y.kd 0 0 2 := ⟨_, rfl⟩
  obtain ⟨w, hw⟩ : ∃ w, w = planeConsts (exJ 0) := ⟨_, rfl⟩
  have hres : ∀ j, planeResidual (exJ j) u () 2 = rigR K true (fun _ => j) r w 0 1 0 + u 2 := by
    intro j
    rw [planeResidual_eq (exJ_valid j), (contactVector_ok (exJ_valid j) _ _ _).2]
    have e1 : (exJ j).Y.kd 0 0 2 = K := hK.symm
    have e2 : planeConsts (exJ j) = w := hw.symm
    have e3 : dataRow (flat (planeMat (exJ j) u)) (planeMat (exJ j) u).cols 0 = r := hr.symm
    have e4 : ((exJ j).Y.facets 0).getD 0 (0, 0) = (0, 2) := rfl
    have e5 : (exJ j).Y.localFacets 0 = 1 := rfl
    rw [e5, sum_range_one, e4, e3, e2]
    dsimp only
    rw [e1]
    have hat := rigidRhs_at K true (fun _ => j) r w 1 0 (by rw [hK]; show 1 < 3; omega) (by rw [hK]; show 0 < 2; omega) 0
    have e6 : K.bs = 2 := by rw [hK]; rfl
    have e7 : K.nq = 1 := by rw [hK]; rfl
    rw [e6, e7] at hat
    have e8 : (0 : Arr (ℕ × ℕ)) (0, 1 * 2 + 0) = 0 := rfl
    rw [e8] at hat
    simp only [List.range_one, List.map_cons, List.map_nil, List.sum_cons, List.sum_nil, add_zero, zero_add] at hat
    have e9 : (exJ j).bulk u 2 = u 2 := rfl
    rw [e9]
    congr 1
    refine Eq.trans ?_ hat
    show scatter 3 2 (fun c k => 3 * c + k) 0 _ 2 = _
    unfold scatter
    simp [sum_range_succ]
    rfl
  obtain ⟨-, -, R⟩ := plane_rows (D := exJ 0) (exJ_valid 0) u exO_size 0 Nat.one_pos 0 2 rfl 0 Nat.one_pos
  rw [← hr, ← hw] at R
  have hone : UnitSum (exJ 0).Y := exO_one
  have hut : u = translation (exJ 0).Y (fun a => if a = 1 then -1.01 else 0) := by
    rw [hu]
    funext d
    show (if d % 2 = 1 then (-0.01 - 1 : ℝ) else 0) = if d % 2 = 1 then -1.01 else 0
    norm_num
  have hKa : AffineConst K := hK ▸ kd_affine (exJ_valid 0) 0 0 2
  have hpress := R.pressure
  rw [hut, translation_switch hone 0 Nat.one_pos 0 2 rfl 0 Nat.one_pos _ rfl] at hpress
  have hpv : (planePoint (exJ 0).Y (exJ 0).P (exJ 0).size (exJ 0).qp 0 0 2 0).clearance
      - (planePoint (exJ 0).Y (exJ 0).P (exJ 0).size (exJ 0).qp 0 0 2 0).dot (fun a => if a = 1 then -1.01 else 0) = -0.01 := by
    show (0 - (-1) : ℝ) - ∑ a ∈ range 2, (if a = 1 then (-1.01 : ℝ) else 0) * (if a + 1 = 2 then -1 else 0) = -0.01
    norm_num [sum_range_succ]
  rw [hpv] at hpress
  have hp : rGamInv r w * rSignU K true r w 0 + (rGap K true r w 0 - rUn K true r w 0) = -0.01 := by
    rw [rPressure_eq, ← facetNormal_eq hKa, ← hpress, hK]
    rfl
  have hN : ∀ a < 2, rN K true r w 0 a = if a + 1 = 2 then -1 else 0 := by
    intro a ha
    rw [rN_eq]
    have := R.normal a ha
    rw [hK]
    exact this
  have hlam : r 1 = 4 := by
    rw [R.lam]
    simp only [planePoint, exJ, exP, if_true]
    norm_num
  have hV : ∀ j : ℝ, rSignV K true (fun _ => j) r w 0 1 0 = -4 * j + rSignV K true (fun _ => 0) r w 0 1 0 := by
    intro j
    have hg : K.gdim = 2 := by rw [hK]; rfl
    have hd : ∀ j : ℝ, rNDot K true (fun _ => j) r w 0 = -j := by
      intro j
      have hj : rNPhys0 K (fun _ => j) = fun _ => j := by rw [hK]; rfl
      rw [rNDot, if_pos rfl, hg, hj]
      simp [sum_range_succ, hN 0 (by omega), hN 1 (by omega)]
    have ht : Elasticity.strainTrace K.tdim (K.K 0) (K.dph 0) 1 0 = 1 := by
      rw [hK]
      show (0 : ℝ) + (if (0 : ℕ) = 0 then 1 else 0) * (if (1 : ℕ) = 0 then -1 else if 1 = 0 + 1 then 1 else 0)
        + (if (1 : ℕ) = 0 then 1 else 0) * (if (1 : ℕ) = 0 then -1 else if 1 = 1 + 1 then 1 else 0) = 1
      norm_num
    unfold rSignV
    rw [hd, hd, ht, hlam]
    ring
  have hs : rSignU K true r w 0 = 0 := by
    rw [rSignU_eq, ← facetNormal_eq hKa, hK]
    refine Eq.trans R.stress ?_
    rw [hut]
    exact translation_stress hone 0 Nat.one_pos 0 2 rfl 0 Nat.one_pos _ rfl _
  rw [hres, hres]
  intro h
  have hw0 : rW0 K 0 = 1 := by rw [hK]; show |(1 : ℝ)| * 1 = 1; simp
  have hw1 : w 1 = -1 := by rw [hw]; rfl
  unfold rigR at h
  rw [hp, hs, hV 1, hw0, hw1, Scalars.rMinus_of_nonpos (by norm_num)] at h
  norm_num at h

end

end Verif.OneSidedDriver
