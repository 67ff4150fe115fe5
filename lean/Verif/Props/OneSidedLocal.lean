import Verif.Props.OneSidedStep

/-!
Property C182: local convergence of the one-sided drivers.
-/

namespace Verif.OneSidedDriver

open Verif.ContactProblem Verif.Spec Verif.Kernels Verif.Assembly Verif.Lemmas Finset

noncomputable section

variable {D : Data} {Y : System Unit} {pt : ℕ → ℕ → ℕ → ℕ → ObstaclePoint}

/-- The switch at a quadrature point as a function of the displacement. -/
def switchAt (Y : System Unit) (pt : ℕ → ℕ → ℕ → ℕ → ObstaclePoint) (gamma : ℝ) (e cell f q : ℕ) (u : ℕ → ℝ) : ℝ :=
  (pt e cell f q).switch gamma (valueAt Y cell f u q) (gradAt Y cell f u q)

/-- Points that are not at the switch at `u'` are on the same side of it at `u`. -/
def NearSwitch (Y : System Unit) (pt : ℕ → ℕ → ℕ → ℕ → ObstaclePoint) (gamma : ℝ) (u u' : ℕ → ℝ) : Prop :=
  ∀ e < Y.localFacets 0, ∀ cell f, (Y.facets 0)[e]? = some (cell, f) → ∀ q < Y.nq,
    switchAt Y pt gamma e cell f q u' ≠ 0 → (switchAt Y pt gamma e cell f q u < 0 ↔ switchAt Y pt gamma e cell f q u' < 0)

theorem switchAt_lip {X : Type} [PseudoMetricSpace X] {U : X → ℕ → ℝ} (hU : ∀ d, Lip (fun x => U x d)) (gamma : ℝ)
    (e cell f q : ℕ) : Lip (fun x => switchAt Y pt gamma e cell f q (U x)) := by
  have hv : ∀ a, Lip (fun x => valueAt Y cell f (U x) q a) := by
    intro a; unfold valueAt; exact Lip.sum _ (fun k _ => (hU _).const_mul _)
  have hg : ∀ a b, Lip (fun x => gradAt Y cell f (U x) q a b) := by
    intro a b; unfold gradAt; exact Lip.sum _ (fun k _ => (hU _).const_mul _)
  unfold switchAt ObstaclePoint.switch
  refine Lip.add (Lip.const_mul ?_ _) (Lip.sub (Lip.const _) ?_)
  · unfold ObstaclePoint.stress ObstaclePoint.dot
    refine Lip.sum _ (fun a ha => Lip.mul_const ?_ _)
    simp only [Elasticity.traction_eq _ _ _ _ _ _ (mem_range.mp ha)]
    refine Lip.add ?_ ?_
    · exact Lip.sum _ (fun j _ => (((hg j a).add (hg a j)).const_mul _).mul_const _)
    · exact ((Lip.sum _ (fun j _ => hg j j)).const_mul _).mul_const _
  · unfold ObstaclePoint.dot
    exact Lip.sum _ (fun a _ => (hv a).mul_const _)

theorem nearSwitch_eventually {X : Type} [PseudoMetricSpace X] {U : X → ℕ → ℝ} (hU : ∀ d, Lip (fun x => U x d))
    (gamma : ℝ) (x0 : X) : ∀ᶠ x in nhds x0, NearSwitch Y pt gamma (U x) (U x0) := by
  have h : ∀ e ∈ range (Y.localFacets 0), ∀ᶠ x in nhds x0, ∀ cell f,
      (Y.facets 0)[e]? = some (cell, f) → ∀ q ∈ range Y.nq, switchAt Y pt gamma e cell f q (U x0) ≠ 0 →
        (switchAt Y pt gamma e cell f q (U x) < 0 ↔ switchAt Y pt gamma e cell f q (U x0) < 0) := by
    intro e _
    cases hf : (Y.facets 0)[e]? with
    | none => exact Filter.Eventually.of_forall (fun x cell f h => nomatch h)
    | some c =>
      have hq : ∀ᶠ x in nhds x0, ∀ q ∈ range Y.nq, switchAt Y pt gamma e c.1 c.2 q (U x0) ≠ 0 →
          (switchAt Y pt gamma e c.1 c.2 q (U x) < 0 ↔ switchAt Y pt gamma e c.1 c.2 q (U x0) < 0) := by
        rw [Filter.eventually_all_finset]
        intro q _
        have hcont := (switchAt_lip (Y := Y) (pt := pt) hU gamma e c.1 c.2 q).continuous.continuousAt (x := x0)
        rcases lt_trichotomy (switchAt Y pt gamma e c.1 c.2 q (U x0)) 0 with h0 | h0 | h0
        · filter_upwards [hcont.eventually_lt continuousAt_const h0] with x hx _
          exact ⟨fun _ => h0, fun _ => hx⟩
        · exact Filter.Eventually.of_forall (fun x h => absurd h0 h)
        · filter_upwards [continuousAt_const.eventually_lt hcont h0] with x hx _
          exact ⟨fun h => absurd h (not_lt.mpr hx.le), fun h => absurd h (not_lt.mpr h0.le)⟩
      filter_upwards [hq] with x hx cell f hcf q hqm
      obtain rfl : c = (cell, f) := Option.some.inj hcf
      exact hx q hqm
  rw [← Filter.eventually_all_finset] at h
  filter_upwards [h] with x hx e he cell f hf q hq
  exact hx e (mem_range.mpr he) cell f hf q (mem_range.mpr hq)

/-- A neighbourhood in terms of the components. -/
theorem ball_of_eventually {N : ℕ} {us : ℕ → ℝ} {P : (ℕ → ℝ) → Prop} {x0 : EuclideanSpace ℝ (range N)}
    (hx0 : extend us x0 = us) (h : ∀ᶠ x in nhds x0, P (extend us x)) :
    ∃ ε > 0, ∀ u : ℕ → ℝ, (∀ d, N ≤ d → u d = us d) → (∀ d < N, |u d - us d| < ε) → P u := by
  obtain ⟨δ, hδ, hball⟩ := Metric.eventually_nhds_iff.mp h
  refine ⟨δ / (N + 1), by positivity, fun u hu hclose => ?_⟩
  obtain ⟨x, hx⟩ := extend_of (F := range N) us u (fun d hd => hu d (by simpa using hd))
  have hdist : dist x x0 < δ := by
    rw [dist_eq_norm, EuclideanSpace.norm_eq]
    have hd : ∀ d : range N, |(x - x0) d| ≤ δ / (N + 1) := by
      intro d
      have e1 : x d = u d := by
        rw [← hx]; unfold extend; rw [dif_pos d.2]
      have e2 : x0 d = us d := by
        have := congrFun hx0 d
        unfold extend at this
        rwa [dif_pos d.2] at this
      show |x d - x0 d| ≤ _
      rw [e1, e2]
      exact (hclose d (mem_range.mp d.2)).le
    have h3 : ∑ d : range N, ‖(x - x0) d‖ ^ 2 ≤ (∑ d : range N, |(x - x0) d|) ^ 2 := by
      have := sum_sq_le_sq_sum_of_nonneg (s := (Finset.univ : Finset (range N))) (f := fun d => |(x - x0) d|) (fun d _ => abs_nonneg _)
      simpa only [Real.norm_eq_abs] using this
    refine lt_of_le_of_lt ((Real.sqrt_le_sqrt h3).trans_eq (Real.sqrt_sq (sum_nonneg (fun _ _ => abs_nonneg _)))) ?_
    refine lt_of_le_of_lt (sum_le_sum (fun d _ => hd d)) ?_
    rw [sum_const, nsmul_eq_mul, card_univ, Fintype.card_coe, card_range, mul_div_assoc', div_lt_iff₀ (by positivity)]
    nlinarith
  have := hball hdist
  rwa [hx] at this

/-- The form is affine from `u` to a displacement `u - w` near it, also if points are at the switch there. -/
theorem form_near {gamma theta : ℝ} {u w : ℕ → ℝ} (h : NearSwitch Y pt gamma u (fun d => u d + -1 * w d)) (v : ℕ → ℝ) :
    obstacleForm Y pt gamma theta (fun d => u d + -1 * w d) v
      = obstacleForm Y pt gamma theta u v - obstacleTangent Y pt gamma theta u w v := by
  unfold obstacleForm obstacleTangent
  rw [← overSurface_sub]
  refine overSurface_congr (fun e he cell f hp q hq => ?_)
  have h1 := h e he cell f hp q hq
  unfold switchAt at h1
  have hs : ∀ P : ObstaclePoint, P.switch gamma (valueAt Y cell f (fun d => u d + -1 * w d) q) (gradAt Y cell f (fun d => u d + -1 * w d) q)
      = P.switch gamma (valueAt Y cell f u q) (gradAt Y cell f u q)
        + -1 * (P.h / gamma * P.stress (gradAt Y cell f w q) - P.dot (valueAt Y cell f w q)) := fun P =>
    switch_lin (fun a _ => value_line cell f u w q a (-1)) (fun a _ b _ => grad_line cell f u w q a b (-1))
  have ht : ∀ P : ObstaclePoint, P.stress (gradAt Y cell f (fun d => u d + -1 * w d) q)
      = P.stress (gradAt Y cell f u q) + -1 * P.stress (gradAt Y cell f w q) := fun P =>
    stress_lin (fun a _ b _ => grad_line cell f u w q a b (-1))
  rw [hs] at h1
  unfold ObstaclePoint.form ObstaclePoint.tangent
  rw [hs, ht]
  generalize (pt e cell f q).switch gamma (valueAt Y cell f u q) (gradAt Y cell f u q) = s at *
  generalize (pt e cell f q).h / gamma * (pt e cell f q).stress (gradAt Y cell f w q) - (pt e cell f q).dot (valueAt Y cell f w q) = t at *
  have hm : min 0 (s + -1 * t) = min 0 s - (if s < 0 then t else 0) := by
    by_cases h0 : s + -1 * t = 0
    · rw [h0, min_self]
      split
      · rename_i h2; rw [min_eq_right h2.le]; linarith
      · rename_i h2; rw [min_eq_left (not_lt.mp h2)]; ring
    · have h1 := h1 h0
      by_cases hc : s < 0
      · rw [if_pos hc, min_eq_right hc.le, min_eq_right (h1.mp hc).le]; ring
      · rw [if_neg hc, min_eq_left (not_lt.mp hc), min_eq_left (not_lt.mp (fun h => hc (h1.mpr h)))]; ring
  rw [hm]
  ring

/-- The points are points of the space of the displacement. -/
def Matching (Y : System Unit) (pt : ℕ → ℕ → ℕ → ℕ → ObstaclePoint) : Prop :=
  ∀ e < Y.localFacets 0, ∀ cell f, (Y.facets 0)[e]? = some (cell, f) → ∀ q < Y.nq, (pt e cell f q).g ≤ Y.gdim

theorem at_below {N : ℕ} (hN : SurfaceBelow Y N) (hg : Matching Y pt) {u u' : ℕ → ℝ} (h : ∀ d < N, u d = u' d) :
    ∀ e < Y.localFacets 0, ∀ cell f, (Y.facets 0)[e]? = some (cell, f) → ∀ q < Y.nq,
      (∀ gamma, switchAt Y pt gamma e cell f q u = switchAt Y pt gamma e cell f q u')
      ∧ (pt e cell f q).stress (gradAt Y cell f u q) = (pt e cell f q).stress (gradAt Y cell f u' q)
      ∧ (pt e cell f q).dot (valueAt Y cell f u q) = (pt e cell f q).dot (valueAt Y cell f u' q) := by
  intro e he cell f hp q hq
  have hd : ∀ k < Y.nd, ∀ a < Y.gdim, u (Y.gdim * Y.space.parent cell k + a) = u' (Y.gdim * Y.space.parent cell k + a) :=
    fun k hk a ha => h _ (by have := hN (cell, f) (List.mem_of_getElem? hp) k hk; dsimp only at this; omega)
  have hv : ∀ a < (pt e cell f q).g, valueAt Y cell f u q a = valueAt Y cell f u' q a + 0 * 0 := by
    intro a ha
    unfold valueAt
    rw [mul_zero, add_zero]
    exact sum_congr rfl (fun k hk => by rw [hd k (mem_range.mp hk) a (ha.trans_le (hg e he cell f hp q hq))])
  have hD : ∀ a < (pt e cell f q).g, ∀ b < (pt e cell f q).g, gradAt Y cell f u q a b = gradAt Y cell f u' q a b + 0 * 0 := by
    intro a ha b _
    unfold gradAt
    rw [mul_zero, add_zero]
    exact sum_congr rfl (fun k hk => by rw [hd k (mem_range.mp hk) a (ha.trans_le (hg e he cell f hp q hq))])
  have e1 : (pt e cell f q).stress (gradAt Y cell f u q) = (pt e cell f q).stress (gradAt Y cell f u' q) := by
    rw [stress_lin hD (E := fun _ _ => 0)]; ring
  have e2 : (pt e cell f q).dot (valueAt Y cell f u q) = (pt e cell f q).dot (valueAt Y cell f u' q) := by
    rw [dot_lin hv (y := fun _ => 0)]; ring
  refine ⟨fun gamma => ?_, e1, e2⟩
  unfold switchAt ObstaclePoint.switch
  rw [e1, e2]

/-- The form depends on the dofs below `N` only. -/
theorem form_below {N : ℕ} (hN : SurfaceBelow Y N) (hg : Matching Y pt) {gamma theta : ℝ} {u u' : ℕ → ℝ}
    (h : ∀ d < N, u d = u' d) (v : ℕ → ℝ) :
    obstacleForm Y pt gamma theta u v = obstacleForm Y pt gamma theta u' v := by
  unfold obstacleForm
  refine overSurface_congr (fun e he cell f hp q hq => ?_)
  obtain ⟨h1, h2, -⟩ := at_below hN hg h e he cell f hp q hq
  have h1 := h1 gamma
  unfold switchAt at h1
  unfold ObstaclePoint.form
  rw [h1, h2]

theorem tangent_below {N : ℕ} (hN : SurfaceBelow Y N) (hg : Matching Y pt) {gamma theta : ℝ} {w w' : ℕ → ℝ}
    (h : ∀ d < N, w d = w' d) (u v : ℕ → ℝ) :
    obstacleTangent Y pt gamma theta u w v = obstacleTangent Y pt gamma theta u w' v := by
  unfold obstacleTangent
  refine overSurface_congr (fun e he cell f hp q hq => ?_)
  obtain ⟨-, h2, h3⟩ := at_below hN hg h e he cell f hp q hq
  unfold ObstaclePoint.tangent
  rw [h2, h3]

/-- Exact Newton steps from near a zero `us` of the residual lead to `us`. -/
theorem local_step (hw : Weighted Y) (hs : Sized Y pt) (hg : Matching Y pt) {gamma theta : ℝ} (hγ : 0 < gamma) {N : ℕ}
    (hN : SurfaceBelow Y N) {K : ℕ → ℕ → ℝ} (hK : ObstacleCoercive Y pt gamma theta N K) (l us : ℕ → ℝ)
    (hus : ∀ v : ℕ → ℝ, ∑ d ∈ range N, (∑ c ∈ range N, K d c * us c - l d) * v d + obstacleForm Y pt gamma theta us v = 0) :
    ∃ ε > 0, ∀ u : ℕ → ℝ, (∀ d < N, |u d - us d| < ε) → ∀ dx : ℕ → ℝ,
      (∀ v : ℕ → ℝ, ∑ d ∈ range N, (∑ c ∈ range N, K d c * dx c) * v d + obstacleTangent Y pt gamma theta u dx v
        = ∑ d ∈ range N, (∑ c ∈ range N, K d c * u c - l d) * v d + obstacleForm Y pt gamma theta u v) →
      ∀ d < N, u d + -1 * dx d = us d := by
  obtain ⟨x0, hx0⟩ := extend_of (F := range N) us us (fun _ _ => rfl)
  have hev := nearSwitch_eventually (Y := Y) (pt := pt) (extend_lip (F := range N) us) gamma x0
  rw [hx0] at hev
  obtain ⟨ε, hε, hnear⟩ := ball_of_eventually (P := fun u => NearSwitch Y pt gamma u us) hx0 hev
  refine ⟨ε, hε, fun u hclose dx hdx => ?_⟩
  obtain ⟨w, hwd⟩ : ∃ w : ℕ → ℝ, w = fun d => u d - us d := ⟨_, rfl⟩
  have eus : (fun d => u d + -1 * w d) = us := by funext d; rw [hwd]; ring
  have hnear' : NearSwitch Y pt gamma u (fun d => u d + -1 * w d) := by
    rw [eus]
    have h1 := hnear (fun d => if d < N then u d else us d) (fun d hd => if_neg (by omega))
      (fun d hd => by simp only [if_pos hd]; exact hclose d hd)
    intro e he cell f hp q hq hne
    have h2 := h1 e he cell f hp q hq hne
    rwa [(at_below hN hg (u := fun d => if d < N then u d else us d) (u' := u) (fun d hd => if_pos hd) e he cell f hp q hq).1] at h2
  have hform := form_near (theta := theta) hnear'
  rw [eus] at hform
  -- the difference of `dx` and `w` solves the homogeneous system
  obtain ⟨z, hz⟩ : ∃ z : ℕ → ℝ, z = fun d => if d < N then dx d + -1 * w d else 0 := ⟨_, rfl⟩
  have hzero : z = 0 := by
    by_contra hne
    have hex : ∃ d, z d ≠ 0 := by
      by_contra h'
      push Not at h'
      exact hne (funext h')
    have h1 := hK z (fun d hd => by rw [hz]; exact if_neg (by omega)) hex
    have h3 := obstacleTangent_lower (pt := pt) hw hs hγ theta u z
    have h4 : obstacleTangent Y pt gamma theta u z z
        = obstacleTangent Y pt gamma theta u dx z - obstacleTangent Y pt gamma theta u w z := by
      rw [tangent_below hN hg (w := z) (w' := fun d => dx d + -1 * w d) (fun d hd => by rw [hz]; exact if_pos hd)]
      unfold obstacleTangent
      rw [← overSurface_sub]
      refine overSurface_congr (fun e he cell f hp q hq => ?_)
      have a1 := stress_lin (p := pt e cell f q) (fun a _ b _ => grad_line (Y := Y) cell f dx w q a b (-1))
      have a2 := dot_lin (p := pt e cell f q) (fun a _ => value_line (Y := Y) cell f dx w q a (-1))
      unfold ObstaclePoint.tangent
      rw [a1, a2]
      split <;> ring
    have h5 := hdx z
    have h6 := hus z
    rw [hform z] at h6
    have e : ∑ d ∈ range N, ∑ c ∈ range N, z d * K d c * z c
        = ∑ d ∈ range N, (∑ c ∈ range N, K d c * dx c) * z d - ∑ d ∈ range N, (∑ c ∈ range N, K d c * u c - l d) * z d
          + ∑ d ∈ range N, (∑ c ∈ range N, K d c * us c - l d) * z d := by
      rw [← sum_sub_distrib, ← sum_add_distrib]
      refine sum_congr rfl (fun d _ => ?_)
      have e2 : ∑ c ∈ range N, z d * K d c * z c
          = z d * (∑ c ∈ range N, K d c * dx c - (∑ c ∈ range N, K d c * u c - ∑ c ∈ range N, K d c * us c)) := by
        rw [← sum_sub_distrib, ← sum_sub_distrib, mul_sum]
        refine sum_congr rfl (fun c hc => ?_)
        have : z c = dx c - (u c - us c) := by
          rw [hz]
          simp only [if_pos (mem_range.mp hc), hwd]
          ring
        rw [this]; ring
      rw [e2]; ring
    linarith
  intro d hd
  have := congrFun hzero d
  rw [hz] at this
  simp only [if_pos hd, hwd, Pi.zero_apply] at this
  linarith

theorem tested_zero {N : ℕ} {R : ℕ → ℝ} (h : ∀ v : ℕ → ℝ, ∑ d ∈ range N, R d * v d = 0) : ∀ d < N, R d = 0 := by
  intro d hd
  have := h (fun c => if c = d then 1 else 0)
  simpa [hd] using this

theorem step_nonzero {N : ℕ} {u us dx : ℕ → ℝ} (hx : ∀ d < N, u d + -1 * dx d = us d) (hne : ∃ d < N, u d ≠ us d) :
    norm2 N dx ≠ 0 := by
  obtain ⟨d, hd, hne⟩ := hne
  unfold norm2
  refine (Real.sqrt_pos.mpr ?_).ne'
  refine lt_of_lt_of_le ?_ (single_le_sum (f := fun d => dx d ^ 2) (fun d _ => sq_nonneg _) (mem_range.mpr hd))
  have : dx d ≠ 0 := fun h => hne (by have := hx d hd; rw [h] at this; linarith)
  positivity

/-- C182: let the bulk be linear and coercive, and let `us` be the displacement at which the residual of
`nitsche_custom` vanishes. There is a neighbourhood of `us` such that the driver, if its initial guess is any other
displacement of it and the linear system is solved exactly, returns `us` after one iteration and as converged,
whatever the tolerances, also if at `us` points are just about to press. `configure` and `finish` are what the driver
does with its initial guess (`nitscheCustom`). Affine cells (C176). -/
theorem C182_plane_partial (hY : System.Valid D.Y) (haff : D.Y.affine = true) (hh : ∀ p ∈ D.Y.facets 0, 0 < D.size p.1)
    (hγ : 0 < D.P.E * D.P.gamma) (hw : ∀ p ∈ D.Y.facets 0, ∀ q < D.Y.nq, 0 ≤ D.Y.weights p.2 q)
    (hN : SurfaceBelow D.Y D.numDofs) (K : ℕ → ℕ → ℝ) (l : ℕ → ℝ)
    (hbulk : ∀ u, ∀ d < D.numDofs, D.bulk u d = ∑ c ∈ range D.numDofs, K d c * u c - l d)
    (hstiff : ∀ u, ∀ d < D.numDofs, ∀ c < D.numDofs, D.stiff u d c = K d c)
    (hK : ObstacleCoercive D.Y (planePoint D.Y D.P D.size D.qp) (D.P.E * D.P.gamma) D.P.theta D.numDofs K)
    (us : ℕ → ℝ) (hus : ∀ d < D.numDofs, planeResidual D us () d = 0) :
    ∃ ε > 0, ∀ u : ℕ → ℝ, (∀ d < D.numDofs, |u d - us d| < ε) → (∃ d < D.numDofs, u d ≠ us d) →
      ∀ (rank0 : Bool) (opts : Newton.OptDict), (opts.crit = none ∨ opts.crit = some (some .residual)) →
      (∀ a ∈ opts.atol, 0 < a) → (∀ a ∈ opts.rtol, 0 < a) → (∀ n ∈ opts.maxIt, 1 ≤ n) →
      ∀ (dx : ℕ → ℝ) (its : ℕ) (reason : ℤ),
      D.linSolve (planeJacobian D u ()) (planeResidual D u ()) 0 = (dx, its, reason) → 0 < reason →
      (∀ d < D.numDofs, ∑ c ∈ range D.numDofs, planeJacobian D u () (d, c) * dx c = planeResidual D u () d) →
      ∃ s x, configure u () opts = (s, none) ∧ finish (planeProblem D) rank0 s = .ok (1, true, x)
        ∧ ∀ d < D.numDofs, x d = us d := by
  have hg : Matching D.Y (planePoint D.Y D.P D.size D.qp) := fun e _ cell f _ q _ => le_refl _
  have hR : ∀ u v, ∑ d ∈ range D.numDofs, planeResidual D u () d * v d
      = ∑ d ∈ range D.numDofs, (∑ c ∈ range D.numDofs, K d c * u c - l d) * v d
        + obstacleForm D.Y (planePoint D.Y D.P D.size D.qp) (D.P.E * D.P.gamma) D.P.theta u v := by
    intro u v
    rw [(C176_vector_partial hY haff hh D.numDofs hN u v).2]
    congr 1
    exact sum_congr rfl (fun d hd => by rw [hbulk u d (mem_range.mp hd)])
  have hJ : ∀ u w v, ∑ d ∈ range D.numDofs, (∑ c ∈ range D.numDofs, planeJacobian D u () (d, c) * w c) * v d
      = ∑ d ∈ range D.numDofs, (∑ c ∈ range D.numDofs, K d c * w c) * v d
        + obstacleTangent D.Y (planePoint D.Y D.P D.size D.qp) (D.P.E * D.P.gamma) D.P.theta u w v := by
    intro u w v
    rw [(C176_matrix_partial hY haff hh hγ D.numDofs hN u w v).2]
    congr 1
    exact sum_congr rfl (fun d hd => by
      rw [sum_congr rfl (fun c hc => by rw [hstiff u d (mem_range.mp hd) c (mem_range.mp hc)])])
  obtain ⟨ε, hε, hstep⟩ := local_step hw (fun e he cell f hp q hq => hh (cell, f) (List.mem_of_getElem? hp)) hg hγ hN hK l us
    (fun v => by rw [← hR]; exact sum_eq_zero (fun d hd => by rw [hus d (mem_range.mp hd), zero_mul]))
  refine ⟨ε, hε, fun u hclose hne rank0 opts hcrit hatol hrtol hmax dx its reason hlin hreason hsol => ?_⟩
  have hx : ∀ d < D.numDofs, u d + -1 * dx d = us d := hstep u hclose dx (fun v => by
    rw [← hJ, ← hR]
    exact sum_congr rfl (fun d hd => by rw [hsol d (mem_range.mp hd)]))
  have hz : ∀ d < D.numDofs, planeResidual D (fun d => u d + -1 * dx d) () d = 0 := by
    refine tested_zero (fun v => ?_)
    have h0 : ∑ d ∈ range D.numDofs, planeResidual D us () d * v d = 0 :=
      sum_eq_zero (fun d hd => by rw [hus d (mem_range.mp hd), zero_mul])
    rw [hR] at h0 ⊢
    rw [form_below hN hg hx, ← h0]
    congr 1
    exact sum_congr rfl (fun d _ => by rw [sum_congr rfl (fun c hc => by rw [hx c (mem_range.mp hc)])])
  obtain ⟨s, h1, h2, h3, h4, h5, h6, h7, h8, h9, h10⟩ := configure_run u () hcrit hatol hrtol hmax
  obtain ⟨s', k1, k2⟩ := Newton.solve_first_step (planeProblem D) rank0 s (fun _ => rfl) (fun _ => rfl) h5 h6 h7 h8 h9 h10 ()
    rfl dx its reason (by rw [h2, h4]; exact hlin) hreason (fun d => u d + -1 * dx d) (by rw [h2]; rfl)
    (norm2_eq_zero hz) (Real.sqrt_nonneg _) (step_nonzero hx hne)
  refine ⟨s, _, h1, ?_, hx⟩
  unfold finish
  rw [k1]
  simp [k2]

/-- C182: the same for `nitsche_rigid_surface_custom`, for cells of any kind. -/
theorem C182_surface (hY : System.Valid D.Y) (hh : ∀ p ∈ D.Y.facets 0, 0 < D.size p.1)
    (hγ : 0 < D.P.gamma * D.P.E) (hw : ∀ p ∈ D.Y.facets 0, ∀ q < D.Y.nq, 0 ≤ D.Y.weights p.2 q)
    (hN : SurfaceBelow D.Y D.numDofs) (K : ℕ → ℕ → ℝ) (l : ℕ → ℝ)
    (hbulk : ∀ u, ∀ d < D.numDofs, D.bulk u d = ∑ c ∈ range D.numDofs, K d c * u c - l d)
    (hstiff : ∀ u, ∀ d < D.numDofs, ∀ c < D.numDofs, D.stiff u d c = K d c)
    (hK : ObstacleCoercive D.Y (surfacePoint D.Y D.P D.size) (D.P.gamma * D.P.E) D.P.theta D.numDofs K)
    (c0 : Mat) (h0 : surfaceRows D = .ok c0)
    (us : ℕ → ℝ) (hus : ∀ d < D.numDofs, surfaceResidual D us (surfaceUpdate D us c0) d = 0) :
    ∃ ε > 0, ∀ u : ℕ → ℝ, (∀ d < D.numDofs, |u d - us d| < ε) → (∃ d < D.numDofs, u d ≠ us d) →
      ∀ (rank0 : Bool) (opts : Newton.OptDict), (opts.crit = none ∨ opts.crit = some (some .residual)) →
      (∀ a ∈ opts.atol, 0 < a) → (∀ a ∈ opts.rtol, 0 < a) → (∀ n ∈ opts.maxIt, 1 ≤ n) →
      ∀ (dx : ℕ → ℝ) (its : ℕ) (reason : ℤ),
      D.linSolve (surfaceJacobian D u (surfaceUpdate D u c0)) (surfaceResidual D u (surfaceUpdate D u c0)) 0 = (dx, its, reason) →
      0 < reason →
      (∀ d < D.numDofs, ∑ c ∈ range D.numDofs, surfaceJacobian D u (surfaceUpdate D u c0) (d, c) * dx c
        = surfaceResidual D u (surfaceUpdate D u c0) d) →
      ∃ s x, configure u c0 opts = (s, none) ∧ finish (surfaceProblem D) rank0 s = .ok (1, true, x)
        ∧ ∀ d < D.numDofs, x d = us d := by
  have hg : Matching D.Y (surfacePoint D.Y D.P D.size) := fun e _ cell f _ q _ => le_refl _
  have hR : ∀ (hist : List (ℕ → ℝ)) (u v : ℕ → ℝ), ∑ d ∈ range D.numDofs,
        surfaceResidual D u (surfaceUpdate D u (hist.foldl (fun c x => surfaceUpdate D x c) c0)) d * v d
      = ∑ d ∈ range D.numDofs, (∑ c ∈ range D.numDofs, K d c * u c - l d) * v d
        + obstacleForm D.Y (surfacePoint D.Y D.P D.size) (D.P.gamma * D.P.E) D.P.theta u v := by
    intro hist u v
    obtain ⟨c, k1, -, k2⟩ := C177_vector hY hh D.numDofs hN hist u v
    obtain rfl : c0 = c := Except.ok.inj (h0.symm.trans k1)
    rw [k2]
    congr 1
    exact sum_congr rfl (fun d hd => by rw [hbulk u d (mem_range.mp hd)])
  have hJ : ∀ u w v, ∑ d ∈ range D.numDofs, (∑ c ∈ range D.numDofs, surfaceJacobian D u (surfaceUpdate D u c0) (d, c) * w c) * v d
      = ∑ d ∈ range D.numDofs, (∑ c ∈ range D.numDofs, K d c * w c) * v d
        + obstacleTangent D.Y (surfacePoint D.Y D.P D.size) (D.P.gamma * D.P.E) D.P.theta u w v := by
    intro u w v
    obtain ⟨c, k1, -, k2⟩ := C177_matrix hY hh hγ D.numDofs hN [] u w v
    obtain rfl : c0 = c := Except.ok.inj (h0.symm.trans k1)
    rw [List.foldl_nil] at k2
    rw [k2]
    congr 1
    exact sum_congr rfl (fun d hd => by
      rw [sum_congr rfl (fun c hc => by rw [hstiff u d (mem_range.mp hd) c (mem_range.mp hc)])])
  have hR0 := hR []
  rw [List.foldl_nil] at hR0
  obtain ⟨ε, hε, hstep⟩ := local_step hw (fun e he cell f hp q hq => hh (cell, f) (List.mem_of_getElem? hp)) hg hγ hN hK l us
    (fun v => by rw [← hR0]; exact sum_eq_zero (fun d hd => by rw [hus d (mem_range.mp hd), zero_mul]))
  refine ⟨ε, hε, fun u hclose hne rank0 opts hcrit hatol hrtol hmax dx its reason hlin hreason hsol => ?_⟩
  have hx : ∀ d < D.numDofs, u d + -1 * dx d = us d := hstep u hclose dx (fun v => by
    rw [← hJ, ← hR0]
    exact sum_congr rfl (fun d hd => by rw [hsol d (mem_range.mp hd)]))
  have hz : ∀ d < D.numDofs, surfaceResidual D (fun d => u d + -1 * dx d)
      (surfaceUpdate D (fun d => u d + -1 * dx d) (surfaceUpdate D u c0)) d = 0 := by
    refine tested_zero (fun v => ?_)
    have hh0 : ∑ d ∈ range D.numDofs, surfaceResidual D us (surfaceUpdate D us c0) d * v d = 0 :=
      sum_eq_zero (fun d hd => by rw [hus d (mem_range.mp hd), zero_mul])
    have h1 := hR [u] (fun d => u d + -1 * dx d) v
    rw [List.foldl_cons, List.foldl_nil] at h1
    rw [hR0] at hh0
    rw [h1, form_below hN hg hx, ← hh0]
    congr 1
    exact sum_congr rfl (fun d _ => by rw [sum_congr rfl (fun c hc => by rw [hx c (mem_range.mp hc)])])
  obtain ⟨s, h1, h2, h3, h4, h5, h6, h7, h8, h9, h10⟩ := configure_run u c0 hcrit hatol hrtol hmax
  obtain ⟨s', k1, k2⟩ := Newton.solve_first_step (surfaceProblem D) rank0 s (fun _ => rfl) (fun _ => rfl) h5 h6 h7 h8 h9 h10
    (surfaceUpdate D u c0) (by rw [h2, h3]; rfl) dx its reason (by rw [h2, h4]; exact hlin) hreason
    (fun d => u d + -1 * dx d) (by rw [h2]; rfl) (norm2_eq_zero hz) (Real.sqrt_nonneg _) (step_nonzero hx hne)
  refine ⟨s, _, h1, ?_, hx⟩
  unfold finish
  rw [k1]
  simp [k2]

/-- Hypotheses of C182 for the body pressed against the plane: `exEnd` is a zero of the residual of the driver. -/
example : (∀ d < 6, planeResidual exC exEnd () d = 0)
    ∧ (∀ u, ∀ d < 6, exC.bulk u d = ∑ c ∈ range 6, (fun d c => if d = c then (1 : ℝ) else 0) d c * u c - planeResidual exB exEnd () d)
    ∧ ObstacleCoercive exC.Y (planePoint exC.Y exC.P exC.size exC.qp) (exC.P.E * exC.P.gamma) exC.P.theta 6
      (fun d c => if d = c then 1 else 0)
    ∧ (∀ p ∈ exC.Y.facets 0, ∀ q < exC.Y.nq, 0 ≤ exC.Y.weights p.2 q) := by
  refine ⟨fun d _ => ?_, exC_bulk, exO_coercive _ _, ?_⟩
  · rw [exC_residual]; ring
  · intro p _ q _
    exact zero_le_one

end

end Verif.OneSidedDriver
