import Verif.Lemmas.Scalars
import Verif.Spec.Vec

/-! Properties C01-C05: scalar restriction, ball projection, Lamé parameters. -/

namespace Verif.Scalars

open Finset Verif.Spec

/-! ### C01 -/

/-- C01: the positive and the negative part split every number, with the right signs, and one of
them is zero. -/
theorem C01_split (x : ℝ) :
    0 ≤ rPlus x ∧ rMinus x ≤ 0 ∧ rPlus x + rMinus x = x ∧ rPlus x * rMinus x = 0
      ∧ rPlus x = max x 0 ∧ rMinus x = min x 0 := by
  rcases le_total 0 x with h | h
  · rw [rPlus_of_nonneg h, rMinus_of_nonneg h]
    exact ⟨h, le_rfl, by ring, by ring, by simp [h], by simp [h]⟩
  · rw [rPlus_of_nonpos h, rMinus_of_nonpos h]
    exact ⟨le_rfl, h, by ring, by ring, by simp [h], by simp [h]⟩

/-- C01: away from zero `dR_plus`, `dR_minus` are the derivatives. -/
theorem C01_derivative (x : ℝ) (hx : x ≠ 0) :
    HasDerivAt rPlus (dRPlus x) x ∧ HasDerivAt rMinus (dRMinus x) x ∧ dRPlus x + dRMinus x = 1 := by
  refine ⟨?_, ?_, ?_⟩
  · simpa using hasDerivAt_rPlus_comp (hasDerivAt_id x) hx
  · simpa using hasDerivAt_rMinus_comp (hasDerivAt_id x) hx
  · rcases lt_or_gt_of_ne hx with h | h
    · simp [dRPlus, dRMinus, h, not_lt.mpr h.le]
    · simp [dRPlus, dRMinus, h, not_lt.mpr h.le]

/-- C01: the Python helpers agree with the C++ functions; the derivatives agree except at 0, where
the UFL version returns 1/2 and the C++ version 0. -/
theorem C01_python_agrees (x : ℝ) :
    pyRPlus x = rPlus x ∧ pyRMinus x = rMinus x
      ∧ (pyDRPlus x = dRPlus x ↔ x ≠ 0) ∧ (pyDRMinus x = dRMinus x ↔ x ≠ 0) := by
  refine ⟨by simp [pyRPlus, rPlus, add_comm], rfl, ?_, ?_⟩
  · rcases lt_trichotomy x 0 with h | h | h
    · simp [pyDRPlus, dRPlus, uflSign, h, h.ne, not_lt.mpr h.le]
    · subst h; norm_num [pyDRPlus, dRPlus, uflSign]
    · simp only [pyDRPlus, dRPlus, uflSign, not_lt.mpr h.le, h, h.ne', if_true, if_false, ne_eq,
        not_false_eq_true, iff_true]; norm_num
  · rcases lt_trichotomy x 0 with h | h | h
    · simp only [pyDRMinus, dRMinus, uflSign, h, h.ne, if_true, ne_eq,
        not_false_eq_true, iff_true]; norm_num
    · subst h; norm_num [pyDRMinus, dRMinus, uflSign]
    · simp only [pyDRMinus, dRMinus, uflSign, not_lt.mpr h.le, h, h.ne', if_true, if_false, ne_eq,
        not_false_eq_true, iff_true]; norm_num

example : (-3 : ℝ) ≠ 0 ∧ rMinus (-3) = -3 ∧ rPlus (-3) = 0 :=
  ⟨by norm_num, rMinus_of_nonpos (by norm_num), rPlus_of_nonpos (by norm_num)⟩

/-! ### C02 -/

theorem normSquared_eq_dot (x : Vec3) : normSquared x = dot x x := by
  rw [normSquared_eq]; simp [dot, sq]

theorem len_eq (x : Vec3) : len x = Real.sqrt (normSquared x) := by
  rw [len, normSquared_eq_dot]

theorem len_le_iff {x : Vec3} {a : ℝ} (ha : 0 ≤ a) : len x ≤ a ↔ normSquared x ≤ a ^ 2 := by
  rw [len_eq, Real.sqrt_le_left ha]

/-- C02: the result lies in the ball; points of the ball are not moved. -/
theorem C02_in_ball (x : Vec3) (a : ℝ) (ha : 0 ≤ a) :
    len (ballProjection x a) ≤ a ∧ (len x ≤ a → ballProjection x a = x)
      ∧ ballProjection (ballProjection x a) a = ballProjection x a := by
  have h1 : len (ballProjection x a) ≤ a := (len_le_iff ha).mpr (normSquared_ballProjection_le ha)
  have h2 : ∀ y : Vec3, len y ≤ a → ballProjection y a = y := fun y hy =>
    ballProjection_inside (by rwa [← len_eq])
  exact ⟨h1, h2 x, h2 _ h1⟩

/-- C02: the result is the nearest point of the ball, and the only nearest point. -/
theorem C02_nearest (x y : Vec3) (a : ℝ) (ha : 0 ≤ a) (hy : len y ≤ a) :
    distance x (ballProjection x a) ≤ distance x y
      ∧ (distance x y ≤ distance x (ballProjection x a) → y = ballProjection x a) := by
  have hv := ballProjection_variational (x := x) ha ((len_le_iff ha).mp hy)
  set p := ballProjection x a
  have key : dot (fun i => x i - y i) (fun i => x i - y i)
      = dot (fun i => x i - p i) (fun i => x i - p i)
        + dot (fun i => y i - p i) (fun i => y i - p i)
        - 2 * ∑ i, (x i - p i) * (y i - p i) := by
    simp only [dot, Fin.sum_univ_three]; ring
  have hnn : 0 ≤ dot (fun i => y i - p i) (fun i => y i - p i) := by
    simp only [dot, Fin.sum_univ_three]; nlinarith [sq_nonneg (y 0 - p 0), sq_nonneg (y 1 - p 1),
      sq_nonneg (y 2 - p 2)]
  constructor
  · unfold Spec.distance len
    exact Real.sqrt_le_sqrt (by linarith)
  · intro h
    have hnn' : 0 ≤ dot (fun i => x i - p i) (fun i => x i - p i) := by
      simp only [dot, Fin.sum_univ_three]; nlinarith [sq_nonneg (x 0 - p 0), sq_nonneg (x 1 - p 1),
        sq_nonneg (x 2 - p 2)]
    have h' := (Real.sqrt_le_sqrt_iff hnn').mp h
    have h0 : dot (fun i => y i - p i) (fun i => y i - p i) = 0 := by linarith
    simp only [dot, Fin.sum_univ_three] at h0
    funext i
    have e0 : y 0 - p 0 = 0 := by
      nlinarith [sq_nonneg (y 0 - p 0), sq_nonneg (y 1 - p 1), sq_nonneg (y 2 - p 2)]
    have e1 : y 1 - p 1 = 0 := by
      nlinarith [sq_nonneg (y 0 - p 0), sq_nonneg (y 1 - p 1), sq_nonneg (y 2 - p 2)]
    have e2 : y 2 - p 2 = 0 := by
      nlinarith [sq_nonneg (y 0 - p 0), sq_nonneg (y 1 - p 1), sq_nonneg (y 2 - p 2)]
    fin_cases i
    · exact sub_eq_zero.mp e0
    · exact sub_eq_zero.mp e1
    · exact sub_eq_zero.mp e2

/-- C02: projecting never increases the distance of two points. -/
theorem C02_nonexpansive (x y : Vec3) (a : ℝ) (ha : 0 ≤ a) :
    distance (ballProjection x a) (ballProjection y a) ≤ distance x y := by
  have h1 := ballProjection_variational (x := x) ha (normSquared_ballProjection_le (x := y) ha)
  have h2 := ballProjection_variational (x := y) ha (normSquared_ballProjection_le (x := x) ha)
  set p := ballProjection x a
  set q := ballProjection y a
  unfold Spec.distance len
  apply Real.sqrt_le_sqrt
  simp only [dot, Fin.sum_univ_three] at *
  nlinarith [sq_nonneg (x 0 - y 0 - (p 0 - q 0)), sq_nonneg (x 1 - y 1 - (p 1 - q 1)),
    sq_nonneg (x 2 - y 2 - (p 2 - q 2))]

/-- C02: the UFL helper computes the same projection (vectors padded with zeros). -/
theorem C02_python_agrees (dim : ℕ) (hd : dim = 2 ∨ dim = 3) (x : ℕ → ℝ) (s : ℝ)
    (hx : dim = 2 → x 2 = 0) (i : Fin 3) :
    pyBallProjection dim x s i = ballProjection (fun k => x k) s i := by
  have : ∑ k ∈ range dim, x k ^ 2 = normSquared (fun k => x k) := by
    rcases hd with rfl | rfl
    · simp [sum_range_succ, normSquared, hx rfl]
    · simp [sum_range_succ, normSquared]
  simp only [pyBallProjection, ballProjection, this]
  split <;> rfl

example : (0 : ℝ) ≤ 1 ∧ len (ballProjection ![3, 4, 0] 1) ≤ 1 ∧ ¬ len (![3, 4, 0] : Vec3) ≤ 1 := by
  refine ⟨by norm_num, (C02_in_ball _ _ (by norm_num)).1, ?_⟩
  rw [len_le_iff (by norm_num)]
  norm_num [normSquared, Matrix.cons_val_two]

/-! ### C03 -/

/-- C03, block size 3: along every differentiable path `x(t)` with differentiable radius `a(t)`, off
the sphere, `d_ball_projection * x' + d_alpha_ball_projection` is the derivative of the projection.
Partial: the radius must not lie strictly between 0 and the hard coded threshold `1e-14`
(see `C03_small_radius_violated`). -/
theorem C03_derivative_partial (x : ℝ → Vec3) (x' : Vec3) (a : ℝ → ℝ) (a' t : ℝ)
    (hx : ∀ i, HasDerivAt (fun s => x s i) (x' i) t) (ha : HasDerivAt a a' t)
    (hr : a t = 0 ∨ 1e-14 ≤ a t) (hne : len (x t) ≠ a t) (i : Fin 3) :
    HasDerivAt (fun s => ballProjection (x s) (a s) i)
      ((∑ j : Fin 3, dBallProjection (x t) (a t) 3 (i * 3 + j) * x' j)
        + dAlphaBallProjection (x t) (a t) a' i) t := by
  have hcont : ContinuousAt (fun s => Real.sqrt (normSquared (x s))) t := by
    apply Real.continuous_sqrt.continuousAt.comp
    simp only [normSquared]
    have := fun i => (hx i).continuousAt
    fun_prop
  rw [len_eq] at hne
  rcases lt_or_gt_of_ne hne with h | h
  · -- inside
    have hat : ¬ a t < 1e-14 := by
      rcases hr with h0 | h0
      · exact absurd (h0 ▸ h) (not_lt.mpr (Real.sqrt_nonneg _))
      · exact not_lt.mpr h0
    have he : (fun s => ballProjection (x s) (a s) i) =ᶠ[nhds t] fun s => x s i := by
      filter_upwards [hcont.eventually_lt ha.continuousAt h] with s hs
      rw [ballProjection_inside hs.le]
    have hd : (∑ j : Fin 3, dBallProjection (x t) (a t) 3 (i * 3 + j) * x' j)
        + dAlphaBallProjection (x t) (a t) a' i = x' i := by
      have h1 : ∀ j : Fin 3, dBallProjection (x t) (a t) 3 (i * 3 + j) * x' j
          = if i = j then x' j else 0 := by
        intro j
        rw [dBallProjection_inside hat h i.2 j.2]
        simp [Fin.ext_iff]
      simp only [h1, dAlphaBallProjection, not_lt.mpr h.le, if_false]
      simp
    rw [hd]
    exact (hx i).congr_of_eventuallyEq he
  · -- outside
    set N := Real.sqrt (normSquared (x t)) with hN
    have ha0 : 0 ≤ a t := by
      rcases hr with h0 | h0
      · exact h0.ge
      · exact le_trans (by norm_num) h0
    have hNpos : 0 < N := lt_of_le_of_lt ha0 h
    have hp : 0 < normSquared (x t) := Real.sqrt_pos.mp hNpos
    have hN2 : normSquared (x t) = N ^ 2 := (Real.sq_sqrt hp.le).symm
    have he : (fun s => ballProjection (x s) (a s) i)
        =ᶠ[nhds t] fun s => a s * x s i / Real.sqrt (normSquared (x s)) := by
      filter_upwards [ha.continuousAt.eventually_lt hcont h] with s hs
      rw [ballProjection_outside hs]
    have hder := (ha.fun_mul (hx i)).fun_div (hasDerivAt_norm hx hp) hNpos.ne'
    refine (hder.congr_deriv ?_).congr_of_eventuallyEq he
    have hAl : dAlphaBallProjection (x t) (a t) a' i = a' * x t i / N := by
      have h' : N > a t := h
      simp only [dAlphaBallProjection, ← hN]; rw [if_pos h']
    rw [hAl]
    have hs : ∑ j : Fin 3, dBallProjection (x t) (a t) 3 (i * 3 + j) * x' j
        = a t / N * x' i - a t * x t i / (N * N ^ 2) * ∑ j, x t j * x' j := by
      rcases hr with h0 | h0
      · have : ∀ m, dBallProjection (x t) (a t) 3 m = 0 := by
          intro m; simp only [dBallProjection, h0]; norm_num
        simp only [this]; simp [h0]
      · have h1 : ∀ j : Fin 3, dBallProjection (x t) (a t) 3 (i * 3 + j) * x' j
            = (if i = j then a t / N * x' j else 0) - a t * x t i / (N * N ^ 2) * (x t j * x' j) := by
          intro j
          rw [dBallProjection_outside (not_lt.mpr h0) (not_lt.mpr h.le) i.2 j.2, hN2]
          have ei : at3 (x t) i = x t i := by simp [at3]
          have ej : at3 (x t) j = x t j := by simp [at3]
          rw [ei, ej, ← hN2, ← hN, hN2]
          by_cases hij : i = j
          · simp [hij]; ring
          · have : (i : ℕ) ≠ j := fun hc => hij (Fin.ext hc)
            simp [hij, this]; ring
        simp only [h1, sum_sub_distrib, ← mul_sum]
        simp
    rw [hs]
    field_simp
    ring

/-- C03, block size 2 (plane vectors stored in the first two of three entries). -/
theorem C03_derivative_2d_partial (x : ℝ → Vec3) (x' : Vec3) (a : ℝ → ℝ) (a' t : ℝ)
    (hx : ∀ i, HasDerivAt (fun s => x s i) (x' i) t) (hz : ∀ s, x s 2 = 0)
    (ha : HasDerivAt a a' t)
    (hr : a t = 0 ∨ 1e-14 ≤ a t) (hne : len (x t) ≠ a t) (i : Fin 2) :
    HasDerivAt (fun s => ballProjection (x s) (a s) i.castSucc)
      ((∑ j : Fin 2, dBallProjection (x t) (a t) 2 (i * 2 + j) * x' j.castSucc)
        + dAlphaBallProjection (x t) (a t) a' i.castSucc) t := by
  have h3 := C03_derivative_partial x x' a a' t hx ha hr hne i.castSucc
  refine h3.congr_deriv ?_
  have hx2 : x' 2 = 0 := by
    have h0 : HasDerivAt (fun s => x s 2) 0 t := by
      simp only [hz]; exact hasDerivAt_const t (0 : ℝ)
    exact (hx 2).unique h0
  congr 1
  rw [Fin.sum_univ_castSucc]
  have hl : (Fin.last 2 : Fin 3) = 2 := rfl
  rw [hl, hx2, mul_zero, add_zero]
  refine sum_congr rfl (fun j _ => ?_)
  congr 1
  by_cases hat : a t < 1e-14
  · simp [dBallProjection, hat]
  · have hi3 : (i : ℕ) < 3 := by omega
    have hj3 : (j : ℕ) < 3 := by omega
    simp only [Fin.val_castSucc]
    by_cases h : Real.sqrt (normSquared (x t)) < a t
    · rw [dBallProjection_inside hat h hi3 hj3, dBallProjection_inside hat h i.2 j.2]
    · rw [dBallProjection_outside hat h hi3 hj3, dBallProjection_outside hat h i.2 j.2]

/-- C03 fails for radii strictly between 0 and `1e-14`: inside such a ball the projection is the
identity but the returned matrix is zero. -/
theorem C03_small_radius_violated :
    ∃ (x' : Vec3) (a : ℝ), 0 < a ∧ len (fun _ => 0 : Vec3) ≠ a ∧
      ¬ HasDerivAt (fun s => ballProjection (fun i => s * x' i) a 0)
        ((∑ j : Fin 3, dBallProjection (fun _ => 0) a 3 (0 * 3 + j) * x' j)
          + dAlphaBallProjection (fun _ => 0) a 0 0) 0 := by
  have hlen : len (fun _ => 0 : Vec3) = 0 := by simp [len, dot]
  refine ⟨fun _ => 1, 1e-15, by norm_num, by rw [hlen]; norm_num, ?_⟩
  intro h
  have hsmall : (1e-15 : ℝ) < 1e-14 := by norm_num
  have hz : ∀ m, dBallProjection (fun _ => 0) 1e-15 3 m = 0 := by
    intro m; simp only [dBallProjection, hsmall, if_true]
  have hal : dAlphaBallProjection (fun _ => 0) 1e-15 0 0 = 0 := by
    simp [dAlphaBallProjection]
  simp only [hz, hal, zero_mul, sum_const_zero, add_zero] at h
  have he : (fun s : ℝ => ballProjection (fun i => s * 1) 1e-15 0) =ᶠ[nhds 0] fun s => s := by
    have hc : ContinuousAt (fun s : ℝ => Real.sqrt (normSquared (fun _ => s * 1))) 0 := by
      apply Continuous.continuousAt
      simp only [normSquared]; fun_prop
    have h0 : Real.sqrt (normSquared (fun _ => (0:ℝ) * 1)) < 1e-15 := by
      simp [normSquared]; norm_num
    filter_upwards [hc.eventually_lt continuousAt_const h0] with s hs
    rw [ballProjection_inside hs.le]; simp
  have h1 : HasDerivAt (fun s : ℝ => s) 0 0 := h.congr_of_eventuallyEq he.symm
  exact absurd (h1.unique (hasDerivAt_id 0)) (by norm_num)

/-- The hypotheses of `C03_derivative_partial` are met outside and inside the ball. -/
example : (∀ i, HasDerivAt (fun s : ℝ => (![3 + s, 4, 0] : Vec3) i) ((![1, 0, 0] : Vec3) i) 0)
    ∧ len (![3 + (0:ℝ), 4, 0] : Vec3) ≠ 2 ∧ (1e-14 : ℝ) ≤ 2 := by
  refine ⟨?_, ?_, by norm_num⟩
  · intro i
    fin_cases i
    · simpa using (hasDerivAt_id (0:ℝ)).const_add 3
    · simpa using hasDerivAt_const (0:ℝ) (4:ℝ)
    · simpa using hasDerivAt_const (0:ℝ) (0:ℝ)
  · have : len (![3 + (0:ℝ), 4, 0] : Vec3) = 5 := by
      rw [len, Real.sqrt_eq_iff_mul_self_eq_of_pos (by norm_num)]
      norm_num [dot, Fin.sum_univ_three, Matrix.cons_val_two]
    rw [this]; norm_num

/-! ### C04 -/

/-- C04: the plane strain pair inverts back to `(E, nu)` by the textbook formulas, and the default
call gives the plane stress value of the plane strain pair. -/
theorem C04_lame (E nu : ℝ) (hE : 0 < E) (h1 : -1 < nu) (h2 : nu < 1 / 2) :
    0 < lameMu E nu
      ∧ lameMu E nu * (3 * lameLambda true E nu + 2 * lameMu E nu)
          / (lameLambda true E nu + lameMu E nu) = E
      ∧ lameLambda true E nu / (2 * (lameLambda true E nu + lameMu E nu)) = nu
      ∧ lameLambda false E nu
          = 2 * lameLambda true E nu * lameMu E nu / (lameLambda true E nu + 2 * lameMu E nu)
      ∧ 0 < 3 * lameLambda true E nu + 2 * lameMu E nu := by
  have ha : 0 < 1 + nu := by linarith
  have hb : 0 < 1 - 2 * nu := by linarith
  have hc : 0 < 1 - nu := by linarith
  have hb' : 1 - nu * 2 ≠ 0 := by linarith
  have hmu : 0 < lameMu E nu := by unfold lameMu; positivity
  have hsum : lameLambda true E nu + lameMu E nu = E / (2 * (1 + nu) * (1 - 2 * nu)) := by
    simp only [lameLambda, lameMu, if_true]; field_simp; ring
  have hsum2 : lameLambda true E nu + 2 * lameMu E nu
      = E * (1 - nu) / ((1 + nu) * (1 - 2 * nu)) := by
    simp only [lameLambda, lameMu, if_true]; field_simp; ring
  have hsum3 : 3 * lameLambda true E nu + 2 * lameMu E nu = E / (1 - 2 * nu) := by
    simp only [lameLambda, lameMu, if_true]; field_simp; ring
  refine ⟨hmu, ?_, ?_, ?_, ?_⟩
  · rw [hsum, hsum3]; simp only [lameMu]; field_simp
  · rw [hsum]; simp only [lameLambda, if_true]; field_simp
  · rw [hsum2]; simp only [lameLambda, lameMu, if_true]
    simp only [Bool.false_eq_true, if_false]
    field_simp
  · rw [hsum3]; positivity

example : (0:ℝ) < 200 ∧ (-1:ℝ) < 0.3 ∧ (0.3:ℝ) < 1 / 2 := by norm_num

/-! ### C05 -/

theorem tangentialProj_eq {d : ℕ} (u n : Fin d → ℝ) (i : Fin d) :
    tangentialProj u n i = u i - n i * dot n u := by
  simp only [tangentialProj, dot, sub_mul, sum_sub_distrib, mul_sum, mul_assoc]
  simp

/-- C05: for a unit normal the tangential projection is orthogonal to the normal, fixes tangential
vectors, is idempotent and linear; together with the normal part it gives back the vector. -/
theorem C05_tangential {d : ℕ} (u v n : Fin d → ℝ) (c : ℝ) (hn : dot n n = 1) :
    dot n (tangentialProj u n) = 0
      ∧ (dot n u = 0 → tangentialProj u n = u)
      ∧ tangentialProj (tangentialProj u n) n = tangentialProj u n
      ∧ tangentialProj (fun i => u i + c * v i) n
          = (fun i => tangentialProj u n i + c * tangentialProj v n i)
      ∧ (∀ i, u i = tangentialProj u n i + dot n u * n i) := by
  have hdot : ∀ w : Fin d → ℝ, dot n (tangentialProj w n) = 0 := by
    intro w
    have : dot n (tangentialProj w n) = dot n w - dot n n * dot n w := by
      simp only [dot]
      simp only [tangentialProj_eq, dot, mul_sub, sum_sub_distrib]
      congr 1
      rw [sum_mul]
      exact sum_congr rfl (fun i _ => by ring)
    rw [this, hn]; ring
  have hfix : ∀ w : Fin d → ℝ, dot n w = 0 → tangentialProj w n = w := by
    intro w hw; funext i; rw [tangentialProj_eq, hw]; ring
  refine ⟨hdot u, hfix u, hfix _ (hdot u), ?_, ?_⟩
  · funext i
    simp only [tangentialProj_eq, dot, mul_add, sum_add_distrib]
    have : ∑ x, n x * (c * v x) = c * ∑ x, n x * v x := by
      rw [mul_sum]; exact sum_congr rfl (fun i _ => by ring)
    rw [this]; ring
  · intro i; rw [tangentialProj_eq]; ring

example : dot (![3/5, 4/5] : Fin 2 → ℝ) ![3/5, 4/5] = 1 := by
  norm_num [dot, Fin.sum_univ_two]

end Verif.Scalars
