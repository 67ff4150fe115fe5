import Verif.Lemmas.Minimiser
import Verif.Props.OneSidedLocal

/-!
Property C183: energy of the symmetric variant of the one-sided drivers.
-/

namespace Verif.OneSidedDriver

open Verif.ContactProblem Verif.Spec Verif.Kernels Verif.Assembly Verif.Lemmas Finset

noncomputable section

variable {D : Data} {Y : System Unit} {pt : ℕ → ℕ → ℕ → ℕ → ObstaclePoint}

theorem min_sq_deriv (x : ℝ) : HasDerivAt (fun s : ℝ => min 0 s ^ 2) (2 * min 0 x) x := by
  have h := (pos_sq_deriv (-x)).comp x ((hasDerivAt_id x).neg)
  have e : ∀ s : ℝ, min 0 s = -max 0 (-s) := fun s => by
    rcases le_total 0 s with h | h
    · rw [min_eq_left h, max_eq_left (by linarith), neg_zero]
    · rw [min_eq_right h, max_eq_right (by linarith), neg_neg]
  have h2 : (fun s : ℝ => min 0 s ^ 2) = (fun s : ℝ => max 0 s ^ 2) ∘ (fun s => -s) := by
    funext s
    simp only [Function.comp, e]
    ring
  rw [h2, e]
  refine h.congr_deriv ?_
  ring

theorem lin_deriv (a c : ℝ) : HasDerivAt (fun s : ℝ => a + s * c) c 0 := by
  have := ((hasDerivAt_id (0 : ℝ)).mul_const c).const_add a
  simpa using this

/-- For `θ = 1` the form is the derivative of the energy. -/
theorem obstacleEnergy_deriv (hs : Sized Y pt) {gamma : ℝ} (hγ : gamma ≠ 0) (u w : ℕ → ℝ) :
    HasDerivAt (fun s : ℝ => obstacleEnergy Y pt gamma (fun d => u d + s * w d)) (obstacleForm Y pt gamma 1 u w) 0 := by
  unfold obstacleEnergy obstacleForm overSurface
  refine HasDerivAt.fun_sum (fun e he => ?_)
  cases hp : (Y.facets 0)[e]? with
  | none => exact hasDerivAt_const _ _
  | some p =>
    simp only [Option.elim_some]
    refine HasDerivAt.fun_sum (fun q hq => HasDerivAt.const_mul _ ?_)
    have hh := hs e (mem_range.mp he) p.1 p.2 hp q (mem_range.mp hq)
    generalize pt e p.1 p.2 q = P at *
    have e1 : ∀ s : ℝ, P.switch gamma (valueAt Y p.1 p.2 (fun d => u d + s * w d) q) (gradAt Y p.1 p.2 (fun d => u d + s * w d) q)
        = P.switch gamma (valueAt Y p.1 p.2 u q) (gradAt Y p.1 p.2 u q)
          + s * (P.h / gamma * P.stress (gradAt Y p.1 p.2 w q) - P.dot (valueAt Y p.1 p.2 w q)) := fun s =>
      switch_lin (fun a _ => value_line _ _ u w q a s) (fun a _ b _ => grad_line _ _ u w q a b s)
    have e2 : ∀ s : ℝ, P.stress (gradAt Y p.1 p.2 (fun d => u d + s * w d) q)
        = P.stress (gradAt Y p.1 p.2 u q) + s * P.stress (gradAt Y p.1 p.2 w q) := fun s =>
      stress_lin (fun a _ b _ => grad_line _ _ u w q a b s)
    unfold ObstaclePoint.energy ObstaclePoint.form
    simp only [e1, e2]
    generalize P.switch gamma (valueAt Y p.1 p.2 u q) (gradAt Y p.1 p.2 u q) = sw
    generalize P.stress (gradAt Y p.1 p.2 u q) = st
    generalize P.stress (gradAt Y p.1 p.2 w q) = st'
    generalize P.dot (valueAt Y p.1 p.2 w q) = vn
    have d1 := (min_sq_deriv (sw + 0 * (P.h / gamma * st' - vn))).comp (0 : ℝ) (lin_deriv sw (P.h / gamma * st' - vn))
    have d2 := (lin_deriv st st').fun_pow 2
    refine ((d1.const_mul (1 / 2 * (gamma / P.h))).fun_sub (d2.const_mul (1 / 2 * (P.h / gamma)))).congr_deriv ?_
    simp only [zero_mul, add_zero]
    have := hh.ne'
    field_simp
    norm_num
    ring

theorem energy_below {N : ℕ} (hN : SurfaceBelow Y N) (hg : Matching Y pt) {gamma : ℝ} {u u' : ℕ → ℝ} (h : ∀ d < N, u d = u' d) :
    obstacleEnergy Y pt gamma u = obstacleEnergy Y pt gamma u' := by
  unfold obstacleEnergy
  refine overSurface_congr (fun e he cell f hp q hq => ?_)
  obtain ⟨h1, h2, -⟩ := at_below hN hg h e he cell f hp q hq
  have h1 := h1 gamma
  unfold switchAt at h1
  unfold ObstaclePoint.energy
  rw [h1, h2]

theorem bulkEnergy_below {N : ℕ} {K : ℕ → ℕ → ℝ} {l u u' : ℕ → ℝ} (h : ∀ d < N, u d = u' d) :
    bulkEnergy N K l u = bulkEnergy N K l u' := by
  unfold bulkEnergy
  congr 1
  · congr 1
    exact sum_congr rfl (fun d hd => sum_congr rfl (fun c hc => by rw [h d (mem_range.mp hd), h c (mem_range.mp hc)]))
  · exact sum_congr rfl (fun d hd => by rw [h d (mem_range.mp hd)])

/-- The zeros of a residual `K u - l + contact` with `θ = 1` are the minimisers of the energy. -/
theorem energy_solution (hw : Weighted Y) (hs : Sized Y pt) (hg : Matching Y pt) {gamma : ℝ} (hγ : 0 < gamma) {N : ℕ}
    (hN : SurfaceBelow Y N) {K : ℕ → ℕ → ℝ} (hsym : ∀ d < N, ∀ c < N, K d c = K c d) (hK : ObstacleCoercive Y pt gamma 1 N K)
    (l : ℕ → ℝ) (R : (ℕ → ℝ) → ℕ → ℝ)
    (hR : ∀ u v, ∑ d ∈ range N, R u d * v d
      = ∑ d ∈ range N, (∑ c ∈ range N, K d c * u c - l d) * v d + obstacleForm Y pt gamma 1 u v) (u : ℕ → ℝ) :
    ((∀ d < N, R u d = 0) ↔ ∀ v, bulkEnergy N K l u + obstacleEnergy Y pt gamma u
      ≤ bulkEnergy N K l v + obstacleEnergy Y pt gamma v)
    ∧ ((∀ d < N, R u d = 0) → ∀ v, (∃ d < N, v d ≠ u d) → bulkEnergy N K l u + obstacleEnergy Y pt gamma u
      < bulkEnergy N K l v + obstacleEnergy Y pt gamma v) := by
  obtain ⟨b, hb⟩ : ∃ b : (ℕ → ℝ) → ℕ → ℝ, b = fun u d => R u d - (∑ c ∈ range N, K d c * u c - l d) := ⟨_, rfl⟩
  have hbf : ∀ u v, ∑ d ∈ range N, b u d * v d = obstacleForm Y pt gamma 1 u v := by
    intro u v
    rw [hb]
    simp only [sub_mul (R u _), sum_sub_distrib]
    rw [hR]; ring
  have hbR : ∀ u, (∀ d < N, R u d = 0) ↔ ∀ d ∈ range N, ∑ c ∈ range N, K d c * u c - l d + b u d = 0 := by
    intro u
    simp only [mem_range, hb]
    constructor <;> intro h d hd <;> linarith [h d hd]
  have hder : ∀ u w : ℕ → ℝ, HasDerivAt (fun s : ℝ => obstacleEnergy Y pt gamma (fun d => u d + s * w d)) (∑ d ∈ range N, b u d * w d) 0 := by
    intro u w
    rw [hbf]
    exact obstacleEnergy_deriv hs hγ.ne' u w
  have hmono : ∀ u z : ℕ → ℝ, (∀ d, d ∉ range N → z d = 0) → (∃ d, z d ≠ 0) →
      0 < ∑ d ∈ range N, ∑ c ∈ range N, z d * K d c * z c
        + (∑ d ∈ range N, b (fun d => u d + z d) d * z d - ∑ d ∈ range N, b u d * z d) := by
    intro u z hz hne
    have h1 := hK z (fun d hd => hz d (by simpa using hd)) hne
    have h2 := obstacleForm_lower (pt := pt) hw hs hγ 1 (fun d => u d + z d) u
    have e : (fun d => u d + z d - u d) = z := by funext d; ring
    rw [e] at h2
    rw [hbf, hbf]
    linarith
  have hstrict : (∀ d < N, R u d = 0) → ∀ v, (∃ d < N, v d ≠ u d) → bulkEnergy N K l u + obstacleEnergy Y pt gamma u
      < bulkEnergy N K l v + obstacleEnergy Y pt gamma v := by
    intro h v ⟨d, hd, hne⟩
    have h1 := solution_min (l := l) (F := range N) hsym hder hmono u ((hbR u).mp h) (fun d => if d < N then v d else u d)
      (fun d hd => if_neg (by simpa using hd)) ⟨d, by simpa [hd] using hne⟩
    rwa [bulkEnergy_below (u' := v) (fun d hd => if_pos hd), energy_below hN hg (u' := v) (fun d hd => if_pos hd)] at h1
  refine ⟨⟨fun h v => ?_, fun h => (hbR u).mpr ?_⟩, hstrict⟩
  · by_cases hv : ∃ d < N, v d ≠ u d
    · exact (hstrict h v hv).le
    · push Not at hv
      rw [bulkEnergy_below hv, energy_below hN hg hv]
  · exact min_solution (F := range N) hsym (fun d hd => mem_range.mp hd) hder u (fun v _ => h v)

/-- For `θ = 1` the linearisation is symmetric. -/
theorem tangent_symm (Y : System Unit) (pt : ℕ → ℕ → ℕ → ℕ → ObstaclePoint) (hs : Sized Y pt) {gamma : ℝ} (hγ : gamma ≠ 0)
    (u w v : ℕ → ℝ) : obstacleTangent Y pt gamma 1 u w v = obstacleTangent Y pt gamma 1 u v w := by
  refine overSurface_congr (fun e he cell f hp q hq => ?_)
  have := (hs e he cell f hp q hq).ne'
  unfold ObstaclePoint.tangent
  split
  · field_simp
  · ring

/-- C183: for `theta = 1` the contact forces which `nitsche_custom` assembles are the derivative of the energy of the
contact with the plane, in every direction and at every displacement, also where points begin to press. Affine cells
(C176). -/
theorem C183_plane_partial (hY : System.Valid D.Y) (haff : D.Y.affine = true) (hh : ∀ p ∈ D.Y.facets 0, 0 < D.size p.1)
    (hγ : 0 < D.P.E * D.P.gamma) (hθ : D.P.theta = 1) (N : ℕ) (hN : SurfaceBelow D.Y N) (u w : ℕ → ℝ) :
    HasDerivAt (fun s : ℝ => obstacleEnergy D.Y (planePoint D.Y D.P D.size D.qp) (D.P.E * D.P.gamma) (fun d => u d + s * w d))
      (∑ d ∈ range N, (planeResidual D u () d - D.bulk u d) * w d) 0 := by
  have h := (C176_vector_partial hY haff hh N hN u w).2
  simp only [sub_mul, sum_sub_distrib]
  rw [h, add_sub_cancel_left, hθ]
  exact obstacleEnergy_deriv (fun e he cell f hp q hq => hh (cell, f) (List.mem_of_getElem? hp)) hγ.ne' u w

/-- C183: for `theta = 1` and a linear symmetric bulk, the displacement that `nitsche_custom` looks for, where its
residual vanishes, is the displacement of least energy, and any other displacement has more energy. Affine cells
(C176). -/
theorem C183_plane_minimiser_partial (hY : System.Valid D.Y) (haff : D.Y.affine = true) (hh : ∀ p ∈ D.Y.facets 0, 0 < D.size p.1)
    (hγ : 0 < D.P.E * D.P.gamma) (hw : ∀ p ∈ D.Y.facets 0, ∀ q < D.Y.nq, 0 ≤ D.Y.weights p.2 q) (hθ : D.P.theta = 1) (N : ℕ)
    (hN : SurfaceBelow D.Y N) (K : ℕ → ℕ → ℝ) (hsym : ∀ d < N, ∀ c < N, K d c = K c d) (l : ℕ → ℝ)
    (hbulk : ∀ u, ∀ d < N, D.bulk u d = ∑ c ∈ range N, K d c * u c - l d)
    (hK : ObstacleCoercive D.Y (planePoint D.Y D.P D.size D.qp) (D.P.E * D.P.gamma) 1 N K) (u : ℕ → ℝ) :
    ((∀ d < N, planeResidual D u () d = 0) ↔ ∀ v,
      bulkEnergy N K l u + obstacleEnergy D.Y (planePoint D.Y D.P D.size D.qp) (D.P.E * D.P.gamma) u
      ≤ bulkEnergy N K l v + obstacleEnergy D.Y (planePoint D.Y D.P D.size D.qp) (D.P.E * D.P.gamma) v)
    ∧ ((∀ d < N, planeResidual D u () d = 0) → ∀ v, (∃ d < N, v d ≠ u d) →
      bulkEnergy N K l u + obstacleEnergy D.Y (planePoint D.Y D.P D.size D.qp) (D.P.E * D.P.gamma) u
      < bulkEnergy N K l v + obstacleEnergy D.Y (planePoint D.Y D.P D.size D.qp) (D.P.E * D.P.gamma) v) := by
  refine energy_solution hw (fun e he cell f hp q hq => hh (cell, f) (List.mem_of_getElem? hp))
    (fun e _ cell f _ q _ => le_refl _) hγ hN hsym hK l (fun u => planeResidual D u ()) (fun u v => ?_) u
  rw [(C176_vector_partial hY haff hh N hN u v).2, hθ]
  congr 1
  exact sum_congr rfl (fun d hd => by rw [hbulk u d (mem_range.mp hd)])

/-- C183: for `theta = 1` the matrix of `nitsche_custom` is symmetric if that of the bulk is. Affine cells (C176). -/
theorem C183_plane_symmetric_partial (hY : System.Valid D.Y) (haff : D.Y.affine = true) (hh : ∀ p ∈ D.Y.facets 0, 0 < D.size p.1)
    (hγ : 0 < D.P.E * D.P.gamma) (hθ : D.P.theta = 1) (N : ℕ) (hN : SurfaceBelow D.Y N) (u : ℕ → ℝ)
    (hsym : ∀ d < N, ∀ c < N, D.stiff u d c = D.stiff u c d) (d c : ℕ) (hd : d < N) (hc : c < N) :
    planeJacobian D u () (d, c) = planeJacobian D u () (c, d) := by
  have h := fun d c : ℕ => (C176_matrix_partial hY haff hh hγ N hN u (fun i => if i = c then 1 else 0) (fun i => if i = d then 1 else 0)).2
  have h1 := h d c
  have h2 := h c d
  rw [hθ, tangent_symm _ _ (fun e he cell f hp q hq => hh (cell, f) (List.mem_of_getElem? hp)) hγ.ne'] at h1
  rw [hθ] at h2
  simp [hd, hc] at h1 h2
  linarith [hsym d hd c hc]

/-- C183: the same for `nitsche_rigid_surface_custom`, for cells of any kind and after any solves before. -/
theorem C183_surface (hY : System.Valid D.Y) (hh : ∀ p ∈ D.Y.facets 0, 0 < D.size p.1)
    (hγ : 0 < D.P.gamma * D.P.E) (hθ : D.P.theta = 1) (N : ℕ) (hN : SurfaceBelow D.Y N)
    (c0 : Mat) (h0 : surfaceRows D = .ok c0) (us : List (ℕ → ℝ)) (u w : ℕ → ℝ) :
    HasDerivAt (fun s : ℝ => obstacleEnergy D.Y (surfacePoint D.Y D.P D.size) (D.P.gamma * D.P.E) (fun d => u d + s * w d))
      (∑ d ∈ range N, (surfaceResidual D u (surfaceUpdate D u (us.foldl (fun c x => surfaceUpdate D x c) c0)) d - D.bulk u d) * w d) 0 := by
  obtain ⟨c, k1, -, k2⟩ := C177_vector hY hh N hN us u w
  obtain rfl : c0 = c := Except.ok.inj (h0.symm.trans k1)
  simp only [sub_mul, sum_sub_distrib]
  rw [k2, add_sub_cancel_left, hθ]
  exact obstacleEnergy_deriv (fun e he cell f hp q hq => hh (cell, f) (List.mem_of_getElem? hp)) hγ.ne' u w

/-- C183: the displacement that `nitsche_rigid_surface_custom` looks for is the one of least energy. -/
theorem C183_surface_minimiser (hY : System.Valid D.Y) (hh : ∀ p ∈ D.Y.facets 0, 0 < D.size p.1)
    (hγ : 0 < D.P.gamma * D.P.E) (hw : ∀ p ∈ D.Y.facets 0, ∀ q < D.Y.nq, 0 ≤ D.Y.weights p.2 q) (hθ : D.P.theta = 1) (N : ℕ)
    (hN : SurfaceBelow D.Y N) (K : ℕ → ℕ → ℝ) (hsym : ∀ d < N, ∀ c < N, K d c = K c d) (l : ℕ → ℝ)
    (hbulk : ∀ u, ∀ d < N, D.bulk u d = ∑ c ∈ range N, K d c * u c - l d)
    (hK : ObstacleCoercive D.Y (surfacePoint D.Y D.P D.size) (D.P.gamma * D.P.E) 1 N K)
    (c0 : Mat) (h0 : surfaceRows D = .ok c0) (us : List (ℕ → ℝ)) (u : ℕ → ℝ) :
    ((∀ d < N, surfaceResidual D u (surfaceUpdate D u (us.foldl (fun c x => surfaceUpdate D x c) c0)) d = 0) ↔ ∀ v,
      bulkEnergy N K l u + obstacleEnergy D.Y (surfacePoint D.Y D.P D.size) (D.P.gamma * D.P.E) u
      ≤ bulkEnergy N K l v + obstacleEnergy D.Y (surfacePoint D.Y D.P D.size) (D.P.gamma * D.P.E) v)
    ∧ ((∀ d < N, surfaceResidual D u (surfaceUpdate D u (us.foldl (fun c x => surfaceUpdate D x c) c0)) d = 0) →
      ∀ v, (∃ d < N, v d ≠ u d) →
      bulkEnergy N K l u + obstacleEnergy D.Y (surfacePoint D.Y D.P D.size) (D.P.gamma * D.P.E) u
      < bulkEnergy N K l v + obstacleEnergy D.Y (surfacePoint D.Y D.P D.size) (D.P.gamma * D.P.E) v) := by
  refine energy_solution hw (fun e he cell f hp q hq => hh (cell, f) (List.mem_of_getElem? hp))
    (fun e _ cell f _ q _ => le_refl _) hγ hN hsym hK l
    (fun u => surfaceResidual D u (surfaceUpdate D u (us.foldl (fun c x => surfaceUpdate D x c) c0))) (fun u v => ?_) u
  obtain ⟨c, k1, -, k2⟩ := C177_vector hY hh N hN us u v
  obtain rfl : c0 = c := Except.ok.inj (h0.symm.trans k1)
  rw [k2, hθ]
  congr 1
  exact sum_congr rfl (fun d hd => by rw [hbulk u d (mem_range.mp hd)])

/-- C183: for `theta = 1` the matrix of `nitsche_rigid_surface_custom` is symmetric if that of the bulk is. -/
theorem C183_surface_symmetric (hY : System.Valid D.Y) (hh : ∀ p ∈ D.Y.facets 0, 0 < D.size p.1)
    (hγ : 0 < D.P.gamma * D.P.E) (hθ : D.P.theta = 1) (N : ℕ) (hN : SurfaceBelow D.Y N) (c0 : Mat) (h0 : surfaceRows D = .ok c0)
    (us : List (ℕ → ℝ)) (u : ℕ → ℝ)
    (hsym : ∀ d < N, ∀ c < N, D.stiff u d c = D.stiff u c d) (d c : ℕ) (hd : d < N) (hc : c < N) :
    surfaceJacobian D u (surfaceUpdate D u (us.foldl (fun c x => surfaceUpdate D x c) c0)) (d, c)
      = surfaceJacobian D u (surfaceUpdate D u (us.foldl (fun c x => surfaceUpdate D x c) c0)) (c, d) := by
  have h : ∀ w v : ℕ → ℝ, _ := fun w v => C177_matrix hY hh hγ N hN us u w v
  obtain ⟨c1, k1, -, h1⟩ := h (fun i => if i = c then 1 else 0) (fun i => if i = d then 1 else 0)
  obtain rfl : c0 = c1 := Except.ok.inj (h0.symm.trans k1)
  obtain ⟨c1, k1, -, h2⟩ := h (fun i => if i = d then 1 else 0) (fun i => if i = c then 1 else 0)
  obtain rfl : c0 = c1 := Except.ok.inj (h0.symm.trans k1)
  rw [hθ, tangent_symm _ _ (fun e he cell f hp q hq => hh (cell, f) (List.mem_of_getElem? hp)) hγ.ne'] at h1
  rw [hθ] at h2
  simp [hd, hc] at h1 h2
  linarith [hsym d hd c hc]

/-- A body that is stiff enough satisfies the condition of C183. -/
theorem stiff_coercive (Y : System Unit) (pt : ℕ → ℕ → ℕ → ℕ → ObstaclePoint) (gamma theta : ℝ) (N : ℕ) :
    ∃ k : ℝ, ObstacleCoercive Y pt gamma theta N (fun d c => if d = c then k else 0) := by
  have hc : ∀ d, Continuous (fun x : EuclideanSpace ℝ (range N) => extend 0 x d) := fun d => (extend_lip 0 d).continuous
  obtain ⟨M, hM⟩ := (isCompact_sphere (0 : EuclideanSpace ℝ (range N)) 1).exists_bound_of_continuousOn
    ((stressSquare_cont (Y := Y) (pt := pt) hc).continuousOn)
  refine ⟨|(1 + theta) ^ 2 / (4 * gamma)| * |M| + 1, fun v hv hne => ?_⟩
  obtain ⟨x, rfl⟩ := extend_of (F := range N) 0 v (fun d hd => hv d (by simpa using hd))
  have hx : x ≠ 0 := by
    rintro rfl
    obtain ⟨d, hd⟩ := hne
    refine hd ?_
    unfold extend
    split <;> simp
  have hn : 0 < ‖x‖ := norm_pos_iff.mpr hx
  have h1 := hM (‖x‖⁻¹ • x) (by simp [norm_smul, hn.ne'])
  have h2 : stressSquare Y pt (extend 0 x) = ‖x‖ ^ 2 * stressSquare Y pt (extend 0 (‖x‖⁻¹ • x)) := by
    rw [extend_smul, stressSquare_smul, ← mul_assoc, ← mul_pow, mul_inv_cancel₀ hn.ne', one_pow, one_mul]
  have h3 : ∑ d ∈ range N, ∑ c ∈ range N, extend 0 x d * (if d = c then |(1 + theta) ^ 2 / (4 * gamma)| * |M| + 1 else 0) * extend 0 x c
      = (|(1 + theta) ^ 2 / (4 * gamma)| * |M| + 1) * ‖x‖ ^ 2 := by
    have e1 : ‖x‖ ^ 2 = ∑ d ∈ range N, extend 0 x d ^ 2 := by
      rw [EuclideanSpace.norm_sq_eq, ← sum_coe_sort (range N)]
      refine sum_congr rfl (fun d _ => ?_)
      unfold extend
      rw [dif_pos d.2, Real.norm_eq_abs, sq_abs]
    rw [e1, mul_sum]
    refine sum_congr rfl (fun d hd => ?_)
    simp only [mul_ite, ite_mul, mul_zero, zero_mul]
    rw [sum_ite_eq (range N) d, if_pos hd]
    ring
  rw [h3, h2]
  rw [Real.norm_eq_abs] at h1
  have h4 : (1 + theta) ^ 2 / (4 * gamma) * (‖x‖ ^ 2 * stressSquare Y pt (extend 0 (‖x‖⁻¹ • x)))
      ≤ |(1 + theta) ^ 2 / (4 * gamma)| * |M| * ‖x‖ ^ 2 := by
    refine (le_abs_self _).trans ?_
    rw [abs_mul, abs_mul, abs_of_nonneg (sq_nonneg ‖x‖), mul_assoc]
    refine mul_le_mul_of_nonneg_left ?_ (abs_nonneg _)
    rw [mul_comm]
    exact mul_le_mul_of_nonneg_right (h1.trans (le_abs_self _)) (sq_nonneg _)
  have : 0 < ‖x‖ ^ 2 := by positivity
  linarith

/-- Hypotheses of C183: a stiff body above a plane and above a rigid surface. -/
example : ∃ D : Data, ∃ k : ℝ, System.Valid D.Y ∧ D.Y.affine = true ∧ (∀ p ∈ D.Y.facets 0, 0 < D.size p.1)
    ∧ 0 < D.P.E * D.P.gamma ∧ (∀ p ∈ D.Y.facets 0, ∀ q < D.Y.nq, 0 ≤ D.Y.weights p.2 q) ∧ D.P.theta = 1 ∧ SurfaceBelow D.Y 6
    ∧ (∀ u, ∀ d < 6, D.bulk u d = ∑ c ∈ range 6, (if d = c then k else 0) * u c - 0)
    ∧ ObstacleCoercive D.Y (planePoint D.Y D.P D.size D.qp) (D.P.E * D.P.gamma) 1 6 (fun d c => if d = c then k else 0) := by
  obtain ⟨k, hk⟩ := stiff_coercive exO.Y (planePoint exO.Y { exP with theta := 1 } exO.size exO.qp) (exP.E * exP.gamma) 1 6
  refine ⟨{ exO with P := { exP with theta := 1 }, bulk := fun u d => k * u d }, k, exO_valid, rfl, exO_size, exO_gamma,
    fun _ _ _ _ => zero_le_one, rfl, exO_below, fun u d hd => ?_, hk⟩
  simp [hd]

example : ∃ D : Data, ∃ k : ℝ, ∃ c0, surfaceRows D = .ok c0 ∧ 0 < D.P.gamma * D.P.E ∧ D.P.theta = 1
    ∧ (∀ u, ∀ d < 6, ∀ c < 6, D.stiff u d c = D.stiff u c d)
    ∧ ObstacleCoercive D.Y (surfacePoint D.Y D.P D.size) (D.P.gamma * D.P.E) 1 6 (fun d c => if d = c then k else 0) := by
  obtain ⟨k, hk⟩ := stiff_coercive exO.Y (surfacePoint exO.Y { exP with theta := 1 } exO.size) (exP.gamma * exP.E) 1 6
  obtain ⟨c, hc, -⟩ := surfaceRows_ok (D := { exO with P := { exP with theta := 1 } }) exO_valid
  exact ⟨{ exO with P := { exP with theta := 1 } }, k, c, hc, by simp [exP], rfl,
    fun u d _ c _ => by simp [exO, eq_comm], hk⟩

end

end Verif.OneSidedDriver
