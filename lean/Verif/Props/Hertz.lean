import Verif.Lemmas.Hertz
import Mathlib.Tactic.Linarith

/-!
Properties C208 and C209: the analytic solutions written by the friction and Hertz demos.
-/

namespace Verif.Hertz

open Real MeasureTheory

/-- The tangential traction with the computed numbers is that of Cattaneo and Mindlin. -/
theorem isCattaneoMindlin_arc {fric R pr q a s : ℝ} (hf : 0 < fric) (hR : 0 < R) (hp : 0 < pr) (ha : 0 < a)
    (hs0 : 0 ≤ s) (hs1 : s ≤ 1) (hs : s ^ 2 = 1 - q / (fric * pr)) :
    Spec.Hertz.IsCattaneoMindlin fric (2 * R * q) a (a * s)
      (fun x => 2 * (2 * R * pr) / (π * a) / a * arc a x)
      (fun x => fric * 4 * R * pr / (π * a ^ 2) * (arc a x - arc (a * s) x)) := by
  have hπ := Real.pi_pos
  have hc0 : 0 ≤ a * s := by positivity
  have hca : a * s ≤ a := by nlinarith
  have hK : 0 < fric * 4 * R * pr / (π * a ^ 2) := by positivity
  have hK' : ∀ y, fric * (2 * (2 * R * pr) / (π * a) / a * y) = fric * 4 * R * pr / (π * a ^ 2) * y := by
    intro y
    field_simp
    ring
  refine ⟨⟨hc0, hca⟩, fun x => ⟨?_, ?_⟩, fun x => ?_, fun x hx => ?_, ?_⟩
  · exact mul_nonneg hK.le (sub_nonneg.2 (arc_mono hc0 hca))
  · rw [hK']
    exact mul_le_mul_of_nonneg_left (by have := arc_nonneg (a * s) x; linarith) hK.le
  · rw [hK']
    constructor
    · intro h
      by_contra h'
      have h1 := arc_pos (not_le.1 h')
      have h2 := mul_left_cancel₀ hK.ne' h
      linarith
    · intro h
      rw [arc_zero hc0 h, sub_zero]
  · have hc : 0 < a * s := (abs_nonneg x).trans_lt hx
    have hs' : 0 < s := by
      rcases hs0.eq_or_lt with h | h
      · rw [← h, mul_zero] at hc
        exact absurd hc (lt_irrefl 0)
      · exact h
    have h1 : arc a (x * (a / (a * s))) = arc (a * s) x / s := by
      unfold arc
      rw [show a ^ 2 - (x * (a / (a * s))) ^ 2 = ((a * s) ^ 2 - x ^ 2) / s ^ 2 by field_simp,
        Real.sqrt_div (sq_lt hx).le, Real.sqrt_sq hs'.le]
    rw [h1]
    field_simp
    ring
  · rw [integral_const_mul, integral_sub (arc_integrable ha.le) (arc_integrable hc0), arc_integral ha.le,
      arc_integral hc0]
    rw [mul_pow, hs]
    field_simp
    ring

/-- C208 for `demo_friction_cylinders_force_driven.py`: for cylinders of radius `R` under a pressing force `|pr|` and a
tangential force `q` per length of the top that friction can transmit, the numbers of the load step are computed, the
written pressure is that of Hertz for the force `2 R |pr|`, and the written tangential traction is that of Cattaneo and
Mindlin for the force `2 R q`. -/
theorem C208_forceDriven {R Estar fric pr q : ℝ} (hR : 0 < R) (hE : 0 < Estar) (hf : 0 < fric) (hp : pr ≠ 0)
    (hq0 : 0 ≤ q) (hq1 : q ≤ fric * |pr|) :
    ∃ (r : Ref) (c : ℝ) (p t : ℝ → ℝ), reference R Estar fric pr q = some r ∧ r.c = some c
      ∧ (∀ x, pressure r.p0 r.a x = some (p x)) ∧ (∀ x, tangentForce fric R r.pr r.a r.c x = some (t x))
      ∧ Spec.Hertz.IsHertz (R / 2) Estar (2 * R * |pr|) r.a p
      ∧ Spec.Hertz.IsCattaneoMindlin fric (2 * R * q) r.a c p t := by
  have hp' : 0 < |pr| := abs_pos.2 hp
  have hfp : 0 < fric * |pr| := by positivity
  obtain ⟨a, ha, hw, hr⟩ := reference_eq hR hE hf hp q
  have h0 : 0 ≤ 1 - q / (fric * |pr|) := by
    rw [sub_nonneg, div_le_one hfp]
    exact hq1
  have h1 : √(1 - q / (fric * |pr|)) ≤ 1 := by
    rw [Real.sqrt_le_one]
    have : 0 ≤ q / (fric * |pr|) := by positivity
    linarith
  have hc0 := Real.sqrt_nonneg (1 - q / (fric * |pr|))
  refine ⟨_, a * √(1 - q / (fric * |pr|)), _, _, hr, by rw [nsqrt_of_nonneg h0]; rfl, pressure_eq ha _, ?_,
    isHertz_arc (by positivity) hE (by positivity) ha (by rw [hw]; ring),
    isCattaneoMindlin_arc hf hR hp' ha hc0 h1 (Real.sq_sqrt h0)⟩
  intro x
  rw [nsqrt_of_nonneg h0]
  exact tangentIf_eq (by positivity) (by nlinarith) Iff.rfl

/-- C208 for `demo_friction_cylinders.py`. Missing: the points left of the contact zone, where the written traction is
not a number (`C208_cylinders_violated`). -/
theorem C208_cylinders_partial {R Estar fric pr q : ℝ} (hR : 0 < R) (hE : 0 < Estar) (hf : 0 < fric) (hp : pr ≠ 0)
    (hq0 : 0 ≤ q) (hq1 : q ≤ fric * |pr|) :
    ∃ (r : Ref) (c : ℝ) (p t : ℝ → ℝ), reference R Estar fric pr q = some r ∧ r.c = some c
      ∧ (∀ x, pressure r.p0 r.a x = some (p x))
      ∧ (∀ x, -r.a < x → tangentCylinders fric R r.pr r.a r.c x = some (t x))
      ∧ Spec.Hertz.IsHertz (R / 2) Estar (2 * R * |pr|) r.a p
      ∧ Spec.Hertz.IsCattaneoMindlin fric (2 * R * q) r.a c p t := by
  obtain ⟨r, c, p, t, h1, h2, h3, h4, h5, h6⟩ := C208_forceDriven hR hE hf hp hq0 hq1
  refine ⟨r, c, p, t, h1, h2, h3, fun x hx => ?_, h5, h6⟩
  rw [← h4 x, tangentForce, tangentCylinders, h2, tangentIf_eq h6.stickZone.1 h6.stickZone.2 Iff.rfl,
    tangentIf_eq h6.stickZone.1 h6.stickZone.2 ?_]
  rw [abs_lt]
  exact ⟨fun h => ⟨hx, h⟩, fun h => h.2⟩

/-- At every point left of the contact zone `demo_friction_cylinders.py` writes a value that is not a number: the second
condition is `abs(x < a)` and not `abs(x) < a`. -/
theorem C208_cylinders_violated {R Estar fric pr q : ℝ} (hR : 0 < R) (hE : 0 < Estar) (hf : 0 < fric) (hp : pr ≠ 0)
    (hq0 : 0 ≤ q) :
    ∃ r, reference R Estar fric pr q = some r ∧ 0 < r.a
      ∧ ∀ x, x < -r.a → tangentCylinders fric R r.pr r.a r.c x = none := by
  have hp' : 0 < |pr| := abs_pos.2 hp
  obtain ⟨a, ha, hw, hr⟩ := reference_eq hR hE hf hp q
  refine ⟨_, hr, ha, fun x hx => ?_⟩
  dsimp only at hx ⊢
  have hx' : a < |x| := lt_abs.2 (Or.inr (by linarith))
  have hneg : a ^ 2 - x ^ 2 < 0 := by nlinarith
  unfold tangentCylinders tangentIf
  rcases lt_or_ge (1 - q / (fric * |pr|)) 0 with h | h
  · rw [nsqrt_of_neg h]
    dsimp only [Option.map_none]
    rw [if_pos (by linarith), nsqrt_of_neg hneg]
    rfl
  · rw [nsqrt_of_nonneg h]
    dsimp only [Option.map_some]
    have h1 : √(1 - q / (fric * |pr|)) ≤ 1 := by
      rw [Real.sqrt_le_one]
      have : 0 ≤ q / (fric * |pr|) := by positivity
      linarith
    rw [if_neg (by nlinarith), if_pos (by linarith), nsqrt_of_neg hneg]
    rfl

/-- C208 beyond the limit of friction: if the tangential force is more than friction can transmit, the force driven demo
writes the traction of full slip, whose resultant is the friction limit. -/
theorem C208_slip {R Estar fric pr q : ℝ} (hR : 0 < R) (hE : 0 < Estar) (hf : 0 < fric) (hp : pr ≠ 0)
    (hq : fric * |pr| < q) :
    ∃ (r : Ref) (p t : ℝ → ℝ), reference R Estar fric pr q = some r ∧ (∀ x, pressure r.p0 r.a x = some (p x))
      ∧ (∀ x, tangentForce fric R r.pr r.a r.c x = some (t x))
      ∧ Spec.Hertz.IsHertz (R / 2) Estar (2 * R * |pr|) r.a p
      ∧ (∀ x, t x = fric * p x) ∧ ∫ x, t x = fric * (2 * R * |pr|) := by
  have hπ := Real.pi_pos
  have hp' : 0 < |pr| := abs_pos.2 hp
  have hfp : 0 < fric * |pr| := by positivity
  obtain ⟨a, ha, hw, hr⟩ := reference_eq hR hE hf hp q
  have h0 : 1 - q / (fric * |pr|) < 0 := by
    rw [sub_neg, one_lt_div hfp]
    exact hq
  have H := isHertz_arc (Rrel := R / 2) (P := 2 * R * |pr|) (by positivity) hE (by positivity) ha (by rw [hw]; ring)
  refine ⟨_, _, fun x => fric * (2 * (2 * R * |pr|) / (π * a) / a * arc a x), hr, pressure_eq ha _, fun x => ?_, H,
    fun _ => rfl, ?_⟩
  · dsimp only
    rw [nsqrt_of_neg h0, Option.map_none, tangentForce, tangentIf_none ha.le Iff.rfl]
    congr 1
    field_simp
    ring
  · rw [integral_const_mul, H.resultant]

/-- The moduli of the demos are those of Hertz, and positive. -/
theorem C208_modulus {E1 E2 nu1 nu2 : ℝ} (h1 : 0 < E1) (h2 : 0 < E2) (hn1 : nu1 ^ 2 < 1) (hn2 : nu2 ^ 2 < 1) :
    (0 < estarCylinders E1 nu1 ∧ Spec.Hertz.IsContactModulus E1 nu1 E1 nu1 (estarCylinders E1 nu1))
      ∧ 0 < estarHertz E1 E2 nu1 nu2 ∧ Spec.Hertz.IsContactModulus E1 nu1 E2 nu2 (estarHertz E1 E2 nu1 nu2) := by
  have a1 : 0 < 1 - nu1 ^ 2 := by linarith
  have a2 : 0 < 1 - nu2 ^ 2 := by linarith
  unfold Spec.Hertz.IsContactModulus estarCylinders estarHertz
  refine ⟨⟨by positivity, ?_⟩, by positivity, ?_⟩
  · field_simp
    ring
  · field_simp

example : (0 : ℝ) < 200 ∧ (0.3 : ℝ) ^ 2 < 1 := by norm_num

/-- Radius and modulus of the demos: radius 8, Young's modulus 200, Poisson ratio 0.3; the friction coefficient is 0.3,
the pressing force 0.625 and the tangential force 0.05. -/
example : (0 : ℝ) < 8 ∧ (0 : ℝ) < 200 / (2 * (1 - 0.3 ^ 2)) ∧ (0 : ℝ) < 0.3 ∧ (-0.625 : ℝ) ≠ 0 ∧ (0 : ℝ) ≤ 0.05
    ∧ (0.05 : ℝ) ≤ 0.3 * |(-0.625 : ℝ)| := by
  norm_num [abs_of_neg]

/-- A tangential force beyond the limit. -/
example : (0.3 : ℝ) * |(-0.625 : ℝ)| < 0.2 := by norm_num [abs_of_neg]

/-- C209 in two dimensions: after every load step the force on the body is the share of the load that was applied, and
the written pressure is that of Hertz for this force. The body is the disk of radius `R` (problem 1, body force) or has
a flat top of length `2 R` (problem 2, traction). -/
theorem C209_twoD_partial {R Estar load : ℝ} (hR : 0 < R) (hE : 0 < Estar) (hl : 0 < load) {steps i : ℕ}
    (hi : i < steps) (pb : Problem) :
    let size : ℝ := match pb with
      | .body => (volume (Metric.ball (0 : EuclideanSpace ℝ (Fin 2)) R)).toReal
      | .traction => (volume (Set.Icc (-R) R)).toReal
    density false pb R load steps i * size = load * ((i + 1 : ℕ) / steps)
      ∧ ∃ p0 a p, stepReference R Estar load steps i = some (p0, a) ∧ (∀ x, pressure p0 a x = some (p x))
        ∧ Spec.Hertz.IsHertz R Estar (load * ((i + 1 : ℕ) / steps)) a p := by
  have hπ := Real.pi_pos
  have hst : (0 : ℝ) < steps := by exact_mod_cast (by omega : 0 < steps)
  dsimp only
  constructor
  · cases pb with
    | body =>
      dsimp only [density]
      rw [EuclideanSpace.volume_ball_fin_two, ENNReal.toReal_mul, ENNReal.toReal_pow, ENNReal.toReal_ofReal hR.le,
        ENNReal.toReal_ofReal hπ.le]
      push_cast
      field_simp
    | traction =>
      dsimp only [density]
      rw [Real.volume_Icc, ENNReal.toReal_ofReal (by linarith)]
      push_cast
      field_simp
      ring
  · have hX : 0 < R * load * ((i : ℝ) + 1) / (steps * π * Estar) := by positivity
    have ha : 0 < 2 * √(R * load * ((i : ℝ) + 1) / (steps * π * Estar)) := by positivity
    have hw : (2 * √(R * load * ((i : ℝ) + 1) / (steps * π * Estar))) ^ 2
        = 4 * (load * ((i + 1 : ℕ) / steps)) * R / (π * Estar) := by
      rw [mul_pow, Real.sq_sqrt hX.le]
      push_cast
      field_simp
      norm_num
    have hs : stepReference R Estar load steps i = some
        (2 * load * (i + 1) / (steps * π * (2 * √(R * load * ((i : ℝ) + 1) / (steps * π * Estar)))),
          2 * √(R * load * ((i : ℝ) + 1) / (steps * π * Estar))) := by
      unfold stepReference
      rw [nsqrt_of_nonneg hX.le]
      show (if _ then _ else _) = _
      rw [if_neg ha.ne']
    refine ⟨_, _, _, hs, pressure_eq ha _, ?_⟩
    have H := isHertz_arc (P := load * ((i + 1 : ℕ) / steps)) hR hE (by positivity) ha hw
    convert H using 3
    push_cast
    field_simp

/-- C209 in three dimensions with a traction on the top: the force on the body is the share of the load. -/
theorem C209_traction_partial {R load : ℝ} (hR : 0 < R) {steps i : ℕ} (hi : i < steps) :
    density true .traction R load steps i * (volume (Metric.ball (0 : EuclideanSpace ℝ (Fin 2)) R)).toReal
      = load * ((i + 1 : ℕ) / steps) := by
  have hπ := Real.pi_pos
  have hst : (0 : ℝ) < steps := by exact_mod_cast (by omega : 0 < steps)
  dsimp only [density]
  rw [EuclideanSpace.volume_ball_fin_two, ENNReal.toReal_mul, ENNReal.toReal_pow, ENNReal.toReal_ofReal hR.le,
    ENNReal.toReal_ofReal hπ.le]
  push_cast
  field_simp

/-- The volume of the lower half of a ball. -/
theorem volume_halfBall (R : ℝ) :
    2 * volume (Spec.Hertz.halfBall R) = volume (Metric.ball (0 : EuclideanSpace ℝ (Fin 3)) R) := by
  have hcont : Continuous fun x : EuclideanSpace ℝ (Fin 3) => x 2 := by fun_prop
  have hmeas : MeasurableSet (Spec.Hertz.halfBall R) :=
    measurableSet_ball.inter (measurableSet_le hcont.measurable measurable_const)
  have hneg : volume (-Spec.Hertz.halfBall R) = volume (Spec.Hertz.halfBall R) := Measure.measure_neg volume _
  have hun : Spec.Hertz.halfBall R ∪ -Spec.Hertz.halfBall R = Metric.ball 0 R := by
    ext x
    simp only [Spec.Hertz.halfBall, Set.mem_union, Set.mem_setOf_eq, Set.mem_neg, mem_ball_zero_iff, norm_neg,
      PiLp.neg_apply]
    constructor
    · rintro (h | h)
      · exact h.1
      · exact h.1
    · intro h
      rcases le_total (x 2) 0 with h' | h'
      · exact Or.inl ⟨h, h'⟩
      · exact Or.inr ⟨h, by linarith⟩
  have hker : volume ((LinearMap.ker (EuclideanSpace.proj (2 : Fin 3) : EuclideanSpace ℝ (Fin 3) →L[ℝ] ℝ).toLinearMap
      : Submodule ℝ (EuclideanSpace ℝ (Fin 3))) : Set (EuclideanSpace ℝ (Fin 3))) = 0 := by
    apply Measure.addHaar_submodule
    intro h
    have h1 : EuclideanSpace.single (2 : Fin 3) (1 : ℝ)
        ∈ LinearMap.ker (EuclideanSpace.proj (2 : Fin 3) : EuclideanSpace ℝ (Fin 3) →L[ℝ] ℝ).toLinearMap := by
      rw [h]
      trivial
    simp at h1
  have hint : volume (Spec.Hertz.halfBall R ∩ -Spec.Hertz.halfBall R) = 0 := by
    apply measure_mono_null _ hker
    intro x hx
    simp only [Spec.Hertz.halfBall, Set.mem_inter_iff, Set.mem_setOf_eq, Set.mem_neg, PiLp.neg_apply] at hx
    show x 2 = 0
    linarith [hx.1.2, hx.2.2]
  have h := measure_union_add_inter (μ := volume) (Spec.Hertz.halfBall R) hmeas.neg
  rw [hint, hneg, hun, add_zero] at h
  rw [h, two_mul]

/-- With a body force in three dimensions the mesh is half a ball, and the density is that for a whole ball: after every
load step the force on the body is half of the share of the load. -/
theorem C209_threeD_violated {R load : ℝ} (hR : 0 < R) {steps i : ℕ} (hi : i < steps) :
    density true .body R load steps i * (volume (Spec.Hertz.halfBall R)).toReal = load * ((i + 1 : ℕ) / steps) / 2 := by
  have hπ := Real.pi_pos
  have hst : (0 : ℝ) < steps := by exact_mod_cast (by omega : 0 < steps)
  have h := congrArg ENNReal.toReal (volume_halfBall R)
  rw [ENNReal.toReal_mul, EuclideanSpace.volume_ball_fin_three, ENNReal.toReal_mul, ENNReal.toReal_pow,
    ENNReal.toReal_ofReal hR.le, ENNReal.toReal_ofReal (by positivity)] at h
  have h2 : (volume (Spec.Hertz.halfBall R)).toReal = R ^ 3 * (π * 4 / 3) / 2 := by
    rw [← h]
    simp
  rw [h2]
  dsimp only [density]
  push_cast
  field_simp

/-- The numbers of the demo: radius 8, load 10, four steps, the last step. -/
example : (0 : ℝ) < 8 ∧ (0 : ℝ) < 2 * 8 * 0.625 ∧ 3 < 4 := by norm_num

end Verif.Hertz
