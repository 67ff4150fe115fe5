import Verif.Spec.CoulombWellPosed
import Verif.Props.WellPosed

/-!
Lemmas for C204: bounds for the contact form with Coulomb friction.
-/

namespace Verif.ContactProblem

open Verif.Spec Verif.Packing Verif.Assembly Verif.Kernels Verif.Lemmas Finset

noncomputable section

variable {G : Type} {Y : System G}

theorem vecLength_nonneg (g : ℕ) (x : ℕ → ℝ) : 0 ≤ vecLength g x := Real.sqrt_nonneg _

theorem vecLength_sq (g : ℕ) (x : ℕ → ℝ) : ∑ a ∈ range g, x a ^ 2 = vecLength g x ^ 2 :=
  (Real.sq_sqrt (sum_nonneg (fun _ _ => sq_nonneg _))).symm

theorem dot_vecLength (g : ℕ) (x y : ℕ → ℝ) : ∑ a ∈ range g, x a * y a ≤ vecLength g x * vecLength g y := dot_le_sqrt g x y

theorem abs_dot_vecLength (g : ℕ) (x y : ℕ → ℝ) : |∑ a ∈ range g, x a * y a| ≤ vecLength g x * vecLength g y := by
  refine abs_le.mpr ⟨?_, dot_vecLength g x y⟩
  have h := dot_vecLength g (fun a => -x a) y
  have e : vecLength g (fun a => -x a) = vecLength g x := by simp [vecLength]
  rw [e] at h
  have e2 : ∑ a ∈ range g, -x a * y a = -∑ a ∈ range g, x a * y a := by
    rw [← sum_neg_distrib]; exact sum_congr rfl (fun _ _ => by ring)
  linarith

theorem vecLength_congr {g : ℕ} {x y : ℕ → ℝ} (h : ∀ a < g, x a = y a) : vecLength g x = vecLength g y := by
  unfold vecLength
  rw [sum_congr rfl (fun a ha => by rw [h a (mem_range.mp ha)])]

theorem vecLength_smul (g : ℕ) (r : ℝ) (x : ℕ → ℝ) : vecLength g (fun a => r * x a) = |r| * vecLength g x := by
  unfold vecLength
  rw [← Real.sqrt_sq_eq_abs, ← Real.sqrt_mul (sq_nonneg r), mul_sum]
  congr 1
  exact sum_congr rfl (fun _ _ => by ring)

/-- The projection shrinks a vector to the radius. -/
theorem ball_factor (g : ℕ) (x : ℕ → ℝ) {r : ℝ} (hr : 0 ≤ r) :
    ∃ ρ, (∀ a, ball g x r a = ρ * x a) ∧ ρ * vecLength g x = min (vecLength g x) r := by
  unfold ball
  by_cases h : Real.sqrt (∑ b ∈ range g, x b ^ 2) ≤ r
  · refine ⟨1, fun a => by rw [if_pos h, one_mul], ?_⟩
    rw [one_mul]; exact (min_eq_left h).symm
  · have h' := not_le.mp h
    have h0 : vecLength g x ≠ 0 := (lt_of_le_of_lt hr h').ne'
    refine ⟨r / vecLength g x, fun a => ?_, ?_⟩
    · rw [if_neg h]; unfold vecLength; ring
    · rw [div_mul_cancel₀ _ h0]; exact (min_eq_right h'.le).symm

/-- Dependence of the projection on the radius. -/
theorem ball_radius (g : ℕ) (x : ℕ → ℝ) {r s : ℝ} (hr : 0 ≤ r) (hs : 0 ≤ s) :
    vecLength g (fun a => ball g x r a - ball g x s a) ≤ |r - s| := by
  obtain ⟨ρ, h1, h2⟩ := ball_factor g x hr
  obtain ⟨σ, h3, h4⟩ := ball_factor g x hs
  have e : (fun a => ball g x r a - ball g x s a) = fun a => (ρ - σ) * x a := by
    funext a; rw [h1, h3]; ring
  rw [e, vecLength_smul]
  have e2 : |ρ - σ| * vecLength g x = |min (vecLength g x) r - min (vecLength g x) s| := by
    rw [← h2, ← h4, ← sub_mul, abs_mul, abs_of_nonneg (vecLength_nonneg g x)]
  rw [e2]
  have := abs_min_sub_min_le_max (vecLength g x) r (vecLength g x) s
  simpa using this

/-- The projection is nonexpansive. -/
theorem ball_nonexpansive (g : ℕ) (x y : ℕ → ℝ) {r : ℝ} (hr : 0 ≤ r) :
    vecLength g (fun a => ball g x r a - ball g y r a) ≤ vecLength g (fun a => x a - y a) := by
  have h := (ball_firm g x y hr).trans (dot_vecLength g (fun a => ball g x r a - ball g y r a) (fun a => x a - y a))
  rw [vecLength_sq g (fun a => ball g x r a - ball g y r a)] at h
  rcases (vecLength_nonneg g (fun a => ball g x r a - ball g y r a)).eq_or_lt with h0 | h0
  · rw [← h0]; exact vecLength_nonneg _ _
  · rw [sq] at h; exact le_of_mul_le_mul_left h h0

/-- The virtual work at a point with Coulomb friction decreases by not more than multiples of the traction and of the
coupling. -/
theorem coulomb_lower (p : ContactPoint) {gamma : ℝ} (hγ : 0 < gamma) (hh : 0 < p.h) (hf : 0 ≤ p.fric)
    (theta : ℝ) {J1 J2 J : ℕ → ℝ} {D1 D2 D : ℕ → ℕ → ℝ}
    (hJ : ∀ a < p.g, J a = J1 a - J2 a) (hD : ∀ a < p.g, ∀ b < p.g, D a b = D1 a b - D2 a b) :
    -((1 + theta) ^ 2 / (8 * gamma) * p.tractionSquare .coulomb D) - p.coupling gamma theta J D
      ≤ p.form .coulomb gamma theta J1 D1 J D - p.form .coulomb gamma theta J2 D2 J D := by
  have ht : ∀ a < p.g, p.trac D a = p.trac D1 a - p.trac D2 a := fun a ha => traction_sub _ _ _ _ _ _ _ hD ha
  have hk : 0 < p.h / gamma := div_pos hh hγ
  have hki : 0 < gamma / p.h := div_pos hγ hh
  have h1 : gamma / p.h * (p.h / gamma) = 1 := by field_simp
  have hn := form_lower p (law := .frictionless) (by simp) hγ hh (fun h => nomatch h) theta hJ hD
  have ep : p.pressure gamma J1 D1 - p.pressure gamma J2 D2 = p.dot J - p.h / gamma * p.dot (p.trac D) := by
    rw [dot_sub p hJ, dot_sub p ht]
    unfold ContactPoint.pressure; ring
  -- the arguments of the projections
  obtain ⟨x1, hx1⟩ : ∃ x, x = fun a => p.slip gamma J1 D1 a - (p.dot p.gap - p.dot J1) * p.tang p.oldNormal a := ⟨_, rfl⟩
  obtain ⟨x2, hx2⟩ : ∃ x, x = fun a => p.slip gamma J2 D2 a - (p.dot p.gap - p.dot J2) * p.tang p.oldNormal a := ⟨_, rfl⟩
  obtain ⟨r1, hr1⟩ : ∃ r, r = p.fric * max 0 (p.pressure gamma J1 D1) := ⟨_, rfl⟩
  obtain ⟨r2, hr2⟩ : ∃ r, r = p.fric * max 0 (p.pressure gamma J2 D2) := ⟨_, rfl⟩
  have hr1' : 0 ≤ r1 := by rw [hr1]; positivity
  have hr2' : 0 ≤ r2 := by rw [hr2]; positivity
  have hxd : ∀ a < p.g, x1 a - x2 a = (p.tang J a + p.dot J * p.tang p.oldNormal a) - p.h / gamma * p.tang (p.trac D) a := by
    intro a ha
    rw [hx1, hx2, tang_sub p hJ ha, tang_sub p ht ha, dot_sub p hJ]
    unfold ContactPoint.slip; ring
  have hrd : |r1 - r2| ≤ p.fric * |p.dot J - p.h / gamma * p.dot (p.trac D)| := by
    rw [hr1, hr2, ← mul_sub, abs_mul, abs_of_nonneg hf, ← ep]
    refine mul_le_mul_of_nonneg_left ?_ hf
    have := abs_max_sub_max_le_abs (p.pressure gamma J1 D1) (p.pressure gamma J2 D2) 0
    simpa only [max_comm] using this
  -- the change of the argument
  have f := ball_firm p.g x1 x2 hr1'
  have f2 : ∑ a ∈ range p.g, (ball p.g x1 r1 a - ball p.g x2 r1 a) * (x1 a - x2 a)
      = ∑ a ∈ range p.g, (ball p.g x1 r1 a - ball p.g x2 r1 a)
      * ((p.tang J a + p.dot J * p.tang p.oldNormal a) - p.h / gamma * p.tang (p.trac D) a) :=
    sum_congr rfl (fun a ha => by rw [hxd a (mem_range.mp ha)])
  rw [f2] at f
  have b1 := nitsche_bound_sum (θ := theta) h1 hki.le f
  -- the term with the change of the normal
  have b2 : ∑ a ∈ range p.g, (ball p.g x1 r1 a - ball p.g x2 r1 a) * (p.dot J * p.tang p.oldNormal a)
      ≤ |p.dot J| * vecLength p.g (p.tang p.oldNormal)
        * vecLength p.g (fun a => p.tang J a + p.dot J * p.tang p.oldNormal a - p.h / gamma * p.tang (p.trac D) a) := by
    refine (dot_vecLength p.g _ _).trans ?_
    rw [vecLength_smul, mul_comm]
    refine mul_le_mul_of_nonneg_left ?_ (mul_nonneg (abs_nonneg _) (vecLength_nonneg _ _))
    exact (ball_nonexpansive p.g x1 x2 hr1').trans_eq (vecLength_congr hxd)
  -- the change of the bound
  have b3 : -(p.fric * |p.dot J - p.h / gamma * p.dot (p.trac D)|
        * vecLength p.g (fun a => p.tang J a - theta * (p.h / gamma) * p.tang (p.trac D) a))
      ≤ ∑ a ∈ range p.g, (ball p.g x2 r1 a - ball p.g x2 r2 a)
        * (p.tang J a - theta * (p.h / gamma) * p.tang (p.trac D) a) := by
    have h := abs_dot_vecLength p.g (fun a => ball p.g x2 r1 a - ball p.g x2 r2 a)
      (fun a => p.tang J a - theta * (p.h / gamma) * p.tang (p.trac D) a)
    have h2 := mul_le_mul_of_nonneg_right ((ball_radius p.g x2 hr1' hr2').trans hrd)
      (vecLength_nonneg p.g (fun a => p.tang J a - theta * (p.h / gamma) * p.tang (p.trac D) a))
    have h3 := (abs_le.mp h).1
    linarith
  have fr : -((1 + theta) ^ 2 / 8 * (p.h / gamma * ∑ a ∈ range p.g, p.tang (p.trac D) a ^ 2)) - p.coupling gamma theta J D
      ≤ p.frictionPart .coulomb gamma theta J1 D1 J D - p.frictionPart .coulomb gamma theta J2 D2 J D := by
    have e : p.frictionPart .coulomb gamma theta J1 D1 J D - p.frictionPart .coulomb gamma theta J2 D2 J D
        = (1 / 2 * (gamma / p.h) * ∑ a ∈ range p.g, (ball p.g x1 r1 a - ball p.g x2 r1 a)
            * ((p.tang J a + p.dot J * p.tang p.oldNormal a) - theta * (p.h / gamma) * p.tang (p.trac D) a)
          - 1 / 2 * theta * (p.h / gamma) * ∑ a ∈ range p.g, p.tang (p.trac D) a * p.tang (p.trac D) a)
          - 1 / 2 * (gamma / p.h) * (∑ a ∈ range p.g, (ball p.g x1 r1 a - ball p.g x2 r1 a) * (p.dot J * p.tang p.oldNormal a))
          + 1 / 2 * (gamma / p.h) * ∑ a ∈ range p.g, (ball p.g x2 r1 a - ball p.g x2 r2 a)
            * (p.tang J a - theta * (p.h / gamma) * p.tang (p.trac D) a) := by
      unfold ContactPoint.frictionPart
      simp only [ContactPoint.projected]
      rw [← hx1, ← hx2, ← hr1, ← hr2]
      simp only [mul_sum, ← sum_sub_distrib, ← sum_add_distrib]
      refine sum_congr rfl (fun a ha => ?_)
      have := tang_sub p ht (mem_range.mp ha)
      linear_combination ((1 / 2 * theta * (p.h / gamma)) * p.tang (p.trac D) a) * this
    rw [e]
    unfold ContactPoint.coupling
    have hk2 : 0 ≤ 1 / 2 * (gamma / p.h) := by positivity
    have c2 := mul_le_mul_of_nonneg_left b2 hk2
    have c3 := mul_le_mul_of_nonneg_left b3 hk2
    rw [mul_add]
    linarith
  unfold ContactPoint.form ContactPoint.tractionSquare at hn ⊢
  simp only [if_true, add_zero, reduceCtorEq, if_false] at hn ⊢
  have e : (1 + theta) ^ 2 / (8 * gamma) * (p.h * (p.dot (p.trac D) ^ 2 + ∑ a ∈ range p.g, p.tang (p.trac D) a ^ 2))
      = (1 + theta) ^ 2 / (8 * gamma) * (p.h * p.dot (p.trac D) ^ 2)
        + (1 + theta) ^ 2 / 8 * (p.h / gamma * ∑ a ∈ range p.g, p.tang (p.trac D) a ^ 2) := by
    field_simp
  rw [e]
  linarith

/-- What the bounds need, with friction coefficients which are not negative. -/
structure CoulombBounded (Y : System G) (t : Tracked G) : Prop where
  loc : ∀ i < Y.numPairs, Y.localFacets i ≤ (Y.facets i).length
  fric : ∀ i < Y.numPairs, ∀ e < Y.localFacets i, 0 ≤ t.fric i e 0
  h : ∀ i < Y.numPairs, ∀ e < Y.localFacets i, 0 < t.h i e 0
  weight : ∀ i < Y.numPairs, ∀ p ∈ Y.facets i, ∀ q < Y.nq, 0 ≤ weightAt Y p.1 p.2 q

theorem coulombForm_lower {t : Tracked G} (hB : CoulombBounded Y t) {gamma : ℝ}
    (hγ : 0 < gamma) (theta : ℝ) (u1 u2 : ℕ → ℝ) :
    -((1 + theta) ^ 2 / (8 * gamma) * tractionSquare Y t .coulomb (fun d => u1 d - u2 d))
        - frictionCoupling Y t gamma theta (fun d => u1 d - u2 d)
      ≤ contactForm Y t .coulomb gamma theta u1 (fun d => u1 d - u2 d)
        - contactForm Y t .coulomb gamma theta u2 (fun d => u1 d - u2 d) := by
  unfold contactForm tractionSquare frictionCoupling
  rw [← sum_sub_distrib, mul_sum, ← sum_neg_distrib, ← sum_sub_distrib]
  refine sum_le_sum (fun i hi => ?_)
  rw [← sum_sub_distrib, mul_sum, ← sum_neg_distrib, ← sum_sub_distrib]
  refine sum_le_sum (fun e he => ?_)
  have hi' := mem_range.mp hi
  have he' := mem_range.mp he
  have hel : e < (Y.facets i).length := lt_of_lt_of_le he' (hB.loc i hi')
  rw [List.getElem?_eq_getElem hel]
  simp only [Option.elim_some]
  rw [← sum_sub_distrib, mul_sum, ← sum_neg_distrib, ← sum_sub_distrib]
  refine sum_le_sum (fun q hq => ?_)
  split
  · have hw := hB.weight i hi' _ (List.getElem_mem hel) q (mem_range.mp hq)
    rw [← mul_sub, mul_left_comm, ← mul_neg, ← mul_sub]
    refine mul_le_mul_of_nonneg_left ?_ hw
    refine coulomb_lower _ hγ (hB.h i hi' e he') (hB.fric i hi' e he') theta (fun a ha => ?_)
      (fun a ha b hb => ?_)
    · unfold jumpAt
      rw [valueAt_sub, oppositeAt_sub]; ring
    · rw [gradAt_sub]; ring
  · simp

/-! ### the linearised form -/

theorem ballRadiusSlope_length (g : ℕ) (x : ℕ → ℝ) (r : ℝ) : vecLength g (ballRadiusSlope g x r) ≤ 1 := by
  unfold ballRadiusSlope
  by_cases h : r < Real.sqrt (∑ b ∈ range g, x b ^ 2)
  · simp only [if_pos h]
    have e : (fun a => x a / Real.sqrt (∑ b ∈ range g, x b ^ 2)) = fun a => (vecLength g x)⁻¹ * x a := by
      funext a; rw [div_eq_inv_mul]; rfl
    rw [e, vecLength_smul, abs_of_nonneg (inv_nonneg.mpr (vecLength_nonneg g x))]
    exact inv_mul_le_one
  · simp only [if_neg h]
    unfold vecLength
    simp

theorem step_abs (x y : ℝ) : |step x * y| ≤ |y| := by
  unfold step
  split
  · rw [one_mul]
  · rw [zero_mul, abs_zero]; exact abs_nonneg _

/-- The computed derivative of the projection shortens vectors. -/
theorem cutSlope_length (g : ℕ) (x : ℕ → ℝ) (r : ℝ) (y : ℕ → ℝ) : vecLength g (cutSlope g x r y) ≤ vecLength g y := by
  have h := (cutSlope_firm g x r y).trans (dot_vecLength g (cutSlope g x r y) y)
  rw [vecLength_sq g (cutSlope g x r y)] at h
  rcases (vecLength_nonneg g (cutSlope g x r y)).eq_or_lt with h0 | h0
  · rw [← h0]; exact vecLength_nonneg _ _
  · rw [sq] at h; exact le_of_mul_le_mul_left h h0

/-- The linearised work with Coulomb friction of a displacement at a point, tested with itself. -/
theorem dCoulomb_lower (p : ContactPoint) {gamma : ℝ} (hγ : 0 < gamma) (hh : 0 < p.h) (hf : 0 ≤ p.fric)
    (theta : ℝ) (J K : ℕ → ℝ) (D E : ℕ → ℕ → ℝ) :
    -((1 + theta) ^ 2 / (8 * gamma) * p.tractionSquare .coulomb E) - p.coupling gamma theta K E
      ≤ p.dForm cutSlope .coulomb gamma theta J D K E K E := by
  have hk : 0 < p.h / gamma := div_pos hh hγ
  have hki : 0 < gamma / p.h := div_pos hγ hh
  have h1 : gamma / p.h * (p.h / gamma) = 1 := by field_simp
  have hn := dForm_lower p (law := .frictionless) (by simp) hγ hh theta J K D E
  obtain ⟨x, hx⟩ : ∃ x, x = fun a => p.slip gamma J D a - (p.dot p.gap - p.dot J) * p.tang p.oldNormal a := ⟨_, rfl⟩
  obtain ⟨r, hr⟩ : ∃ r, r = p.fric * max 0 (p.pressure gamma J D) := ⟨_, rfl⟩
  obtain ⟨y, hy⟩ : ∃ y, y = fun a => p.slip gamma K E a + p.dot K * p.tang p.oldNormal a := ⟨_, rfl⟩
  obtain ⟨c, hc⟩ : ∃ c, c = p.fric * (step (p.pressure gamma J D) * p.dPressure gamma K E) := ⟨_, rfl⟩
  have hya : ∀ a, y a = (p.tang K a + p.dot K * p.tang p.oldNormal a) - p.h / gamma * p.tang (p.trac E) a := by
    intro a
    rw [hy]
    unfold ContactPoint.slip; ring
  have hcb : |c| ≤ p.fric * |p.dot K - p.h / gamma * p.dot (p.trac E)| := by
    rw [hc, abs_mul, abs_of_nonneg hf]
    exact mul_le_mul_of_nonneg_left (step_abs _ _) hf
  have f := cutSlope_firm p.g x r y
  have f2 : ∑ a ∈ range p.g, cutSlope p.g x r y a * y a
      = ∑ a ∈ range p.g, cutSlope p.g x r y a
      * ((p.tang K a + p.dot K * p.tang p.oldNormal a) - p.h / gamma * p.tang (p.trac E) a) :=
    sum_congr rfl (fun a _ => by rw [hya a])
  rw [f2] at f
  have b1 := nitsche_bound_sum (θ := theta) h1 hki.le f
  have b2 : ∑ a ∈ range p.g, cutSlope p.g x r y a * (p.dot K * p.tang p.oldNormal a)
      ≤ |p.dot K| * vecLength p.g (p.tang p.oldNormal)
        * vecLength p.g (fun a => p.tang K a + p.dot K * p.tang p.oldNormal a - p.h / gamma * p.tang (p.trac E) a) := by
    refine (dot_vecLength p.g _ _).trans ?_
    rw [vecLength_smul, mul_comm]
    refine mul_le_mul_of_nonneg_left ?_ (mul_nonneg (abs_nonneg _) (vecLength_nonneg _ _))
    exact (cutSlope_length p.g x r y).trans_eq (vecLength_congr (fun a _ => hya a))
  have b3 : -(p.fric * |p.dot K - p.h / gamma * p.dot (p.trac E)|
        * vecLength p.g (fun a => p.tang K a - theta * (p.h / gamma) * p.tang (p.trac E) a))
      ≤ ∑ a ∈ range p.g, (ballRadiusSlope p.g x r a * c)
        * (p.tang K a - theta * (p.h / gamma) * p.tang (p.trac E) a) := by
    have h := abs_dot_vecLength p.g (fun a => ballRadiusSlope p.g x r a * c)
      (fun a => p.tang K a - theta * (p.h / gamma) * p.tang (p.trac E) a)
    have hl : vecLength p.g (fun a => ballRadiusSlope p.g x r a * c)
        ≤ p.fric * |p.dot K - p.h / gamma * p.dot (p.trac E)| := by
      have e : (fun a => ballRadiusSlope p.g x r a * c) = fun a => c * ballRadiusSlope p.g x r a := by
        funext a; ring
      rw [e, vecLength_smul]
      have := mul_le_mul_of_nonneg_left (ballRadiusSlope_length p.g x r) (abs_nonneg c)
      linarith
    have h2 := mul_le_mul_of_nonneg_right hl
      (vecLength_nonneg p.g (fun a => p.tang K a - theta * (p.h / gamma) * p.tang (p.trac E) a))
    have h3 := (abs_le.mp h).1
    linarith
  have fr : -((1 + theta) ^ 2 / 8 * (p.h / gamma * ∑ a ∈ range p.g, p.tang (p.trac E) a ^ 2)) - p.coupling gamma theta K E
      ≤ p.dFrictionPart cutSlope .coulomb gamma theta J D K E K E := by
    have e : p.dFrictionPart cutSlope .coulomb gamma theta J D K E K E
        = (1 / 2 * (gamma / p.h) * ∑ a ∈ range p.g, cutSlope p.g x r y a
            * ((p.tang K a + p.dot K * p.tang p.oldNormal a) - theta * (p.h / gamma) * p.tang (p.trac E) a)
          - 1 / 2 * theta * (p.h / gamma) * ∑ a ∈ range p.g, p.tang (p.trac E) a * p.tang (p.trac E) a)
          - 1 / 2 * (gamma / p.h) * (∑ a ∈ range p.g, cutSlope p.g x r y a * (p.dot K * p.tang p.oldNormal a))
          + 1 / 2 * (gamma / p.h) * ∑ a ∈ range p.g, (ballRadiusSlope p.g x r a * c)
            * (p.tang K a - theta * (p.h / gamma) * p.tang (p.trac E) a) := by
      unfold ContactPoint.dFrictionPart
      simp only [ContactPoint.dProjected]
      rw [← hx, ← hr, ← hy, ← hc]
      simp only [mul_sum, ← sum_sub_distrib, ← sum_add_distrib]
      refine sum_congr rfl (fun a _ => ?_)
      ring
    rw [e]
    unfold ContactPoint.coupling
    have hk2 : 0 ≤ 1 / 2 * (gamma / p.h) := by positivity
    have c2 := mul_le_mul_of_nonneg_left b2 hk2
    have c3 := mul_le_mul_of_nonneg_left b3 hk2
    rw [mul_add]
    linarith
  unfold ContactPoint.dForm ContactPoint.tractionSquare at hn ⊢
  simp only [if_true, add_zero, reduceCtorEq, if_false] at hn ⊢
  have e : (1 + theta) ^ 2 / (8 * gamma) * (p.h * (p.dot (p.trac E) ^ 2 + ∑ a ∈ range p.g, p.tang (p.trac E) a ^ 2))
      = (1 + theta) ^ 2 / (8 * gamma) * (p.h * p.dot (p.trac E) ^ 2)
        + (1 + theta) ^ 2 / 8 * (p.h / gamma * ∑ a ∈ range p.g, p.tang (p.trac E) a ^ 2) := by
    field_simp
  rw [e]
  linarith

theorem coulombTangent_lower {t : Tracked G} (hB : CoulombBounded Y t) {gamma : ℝ} (hγ : 0 < gamma) (theta : ℝ) (u w : ℕ → ℝ) :
    -((1 + theta) ^ 2 / (8 * gamma) * tractionSquare Y t .coulomb w) - frictionCoupling Y t gamma theta w
      ≤ contactTangent Y t cutSlope .coulomb gamma theta u w w := by
  unfold contactTangent tractionSquare frictionCoupling
  rw [mul_sum, ← sum_neg_distrib, ← sum_sub_distrib]
  refine sum_le_sum (fun i hi => ?_)
  rw [mul_sum, ← sum_neg_distrib, ← sum_sub_distrib]
  refine sum_le_sum (fun e he => ?_)
  have hi' := mem_range.mp hi
  have he' := mem_range.mp he
  have hel : e < (Y.facets i).length := lt_of_lt_of_le he' (hB.loc i hi')
  rw [List.getElem?_eq_getElem hel]
  simp only [Option.elim_some]
  rw [mul_sum, ← sum_neg_distrib, ← sum_sub_distrib]
  refine sum_le_sum (fun q hq => ?_)
  split
  · have hw := hB.weight i hi' _ (List.getElem_mem hel) q (mem_range.mp hq)
    rw [mul_left_comm, ← mul_neg, ← mul_sub]
    exact mul_le_mul_of_nonneg_left (dCoulomb_lower _ hγ (hB.h i hi' e he') (hB.fric i hi' e he') theta _ _ _ _) hw
  · simp

/-! ### the form is Lipschitz continuous -/

section Lip

variable {X : Type} [PseudoMetricSpace X]

theorem Lip_bound {f g : X → ℝ} (h : ∀ s s', |f s - f s'| ≤ |g s - g s'|) (hg : Lip g) : Lip f := by
  obtain ⟨C, hC⟩ := hg
  exact ⟨C, fun s s' => (h s s').trans (hC s s')⟩

/-- The projection onto a ball of varying radius. -/
theorem ball_lip_radius {g : ℕ} {x : X → ℕ → ℝ} {r : X → ℝ} (hr : ∀ s, 0 ≤ r s) (hrl : Lip r)
    (hx : ∀ a < g, Lip (fun s => x s a)) {a : ℕ} (ha : a < g) : Lip (fun s => ball g (x s) (r s) a) := by
  obtain ⟨C, hC⟩ := hrl
  choose D hD using hx
  refine ⟨(∑ b : Fin g, D b b.2) + C, fun s s' => ?_⟩
  have hcomp : ∀ (z : ℕ → ℝ), |z a| ≤ vecLength g z := by
    intro z
    refine Real.abs_le_sqrt ?_
    exact single_le_sum (f := fun b => z b ^ 2) (fun _ _ => sq_nonneg _) (mem_range.mpr ha)
  have h1 := (hcomp (fun b => ball g (x s) (r s) b - ball g (x s') (r s) b)).trans (ball_nonexpansive g (x s) (x s') (hr s))
  have h2 := (hcomp (fun b => ball g (x s') (r s) b - ball g (x s') (r s') b)).trans (ball_radius g (x s') (hr s) (hr s'))
  have h3 : vecLength g (fun b => x s b - x s' b) ≤ ∑ b ∈ range g, |x s b - x s' b| := by
    have := sum_sq_le_sq_sum_of_nonneg (s := range g) (f := fun b => |x s b - x s' b|) (fun b _ => abs_nonneg _)
    simp only [sq_abs] at this
    exact (Real.sqrt_le_sqrt this).trans_eq (Real.sqrt_sq (sum_nonneg (fun _ _ => abs_nonneg _)))
  rw [← Fin.sum_univ_eq_sum_range] at h3
  have h4 : ∑ b : Fin g, |x s b - x s' b| ≤ ∑ b : Fin g, D b b.2 * dist s s' :=
    sum_le_sum (fun b _ => hD b b.2 s s')
  rw [← sum_mul] at h4
  have h5 := hC s s'
  have e : ball g (x s) (r s) a - ball g (x s') (r s') a
      = (ball g (x s) (r s) a - ball g (x s') (r s) a) + (ball g (x s') (r s) a - ball g (x s') (r s') a) := by ring
  have h6 := abs_add_le (ball g (x s) (r s) a - ball g (x s') (r s) a) (ball g (x s') (r s) a - ball g (x s') (r s') a)
  rw [← e] at h6
  rw [add_mul]
  linarith

theorem coulomb_lip {p : ContactPoint} {J : X → ℕ → ℝ} {D : X → ℕ → ℕ → ℝ} (gamma theta : ℝ) (hf : 0 ≤ p.fric)
    (hJ : ∀ a, Lip (fun s => J s a)) (hD : ∀ a b, Lip (fun s => D s a b)) (J' : ℕ → ℝ) (D' : ℕ → ℕ → ℝ) :
    Lip (fun s => p.form .coulomb gamma theta (J s) (D s) J' D') := by
  have hN := form_lip (p := p) (law := .frictionless) (by simp) gamma theta hJ hD (fun h => nomatch h) J' D'
  have hT : Lip (fun s => p.dot (p.trac (D s))) := dot_lip (fun a ha => trac_lip hD ha)
  have hTt : ∀ a < p.g, Lip (fun s => p.tang (p.trac (D s)) a) := fun a ha => tang_lip (fun a ha => trac_lip hD ha) ha
  have hdJ : Lip (fun s => p.dot (J s)) := dot_lip (fun a _ => hJ a)
  have hP : Lip (fun s => p.pressure gamma (J s) (D s)) := (hdJ.sub (Lip.const _)).sub (hT.const_mul _)
  unfold ContactPoint.form at hN ⊢
  simp only [if_true, add_zero, reduceCtorEq, if_false] at hN ⊢
  refine Lip.add hN ?_
  unfold ContactPoint.frictionPart
  refine Lip.sub ?_ ?_
  · refine Lip.const_mul (Lip.sum _ (fun a ha => Lip.mul_const ?_ _)) _
    simp only [ContactPoint.projected]
    refine ball_lip_radius (fun s => mul_nonneg hf (le_max_left _ _)) ((Lip.posPart hP).const_mul _) (fun b hb => ?_)
      (mem_range.mp ha)
    exact ((tang_lip (fun a _ => hJ a) hb).sub ((hTt b hb).const_mul _)).sub (((Lip.const _).sub hdJ).mul_const _)
  · exact Lip.const_mul (Lip.sum _ (fun a ha => (hTt a (mem_range.mp ha)).mul_const _)) _

theorem coulombForm_lip {U : X → ℕ → ℝ} {t : Tracked G} (hB : CoulombBounded Y t) (gamma theta : ℝ)
    (hU : ∀ d, Lip (fun x => U x d)) (v : ℕ → ℝ) : Lip (fun x => contactForm Y t .coulomb gamma theta (U x) v) := by
  unfold contactForm
  refine Lip.sum _ (fun i hi => Lip.sum _ (fun e he => ?_))
  cases hf : (Y.facets i)[e]? with
  | none => exact Lip.const _
  | some c =>
    simp only [Option.elim_some]
    refine Lip.sum _ (fun q _ => ?_)
    by_cases hk : 0 ≤ Y.map t.cur i (e * Y.nq + q)
    · simp only [if_pos hk]
      exact Lip.const_mul (coulomb_lip gamma theta (hB.fric i (mem_range.mp hi) e (mem_range.mp he))
        (fun a => jumpAt_lip hU _ _ _ _ _ _ a) (fun a b => (gradAt_lip hU _ _ _ a b).add (Lip.const _)) _ _) _
    · simp only [if_neg hk]; exact Lip.const _

end Lip

/-! ### the coupling is homogeneous and continuous -/

theorem coupling_smul (p : ContactPoint) (gamma theta r : ℝ) {J J' : ℕ → ℝ} {D D' : ℕ → ℕ → ℝ}
    (hJ : ∀ a, J' a = r * J a) (hD : ∀ a b, D' a b = r * D a b) :
    p.coupling gamma theta J' D' = r ^ 2 * p.coupling gamma theta J D := by
  have ht : ∀ a < p.g, p.trac D' a = r * p.trac D a := by
    intro a ha
    unfold ContactPoint.trac
    rw [Elasticity.traction_eq _ _ _ _ _ _ ha, Elasticity.traction_eq _ _ _ _ _ _ ha]
    have e1 : ∑ j ∈ range p.g, p.mu * (D' j a + D' a j) * p.nPhys j
        = r * ∑ j ∈ range p.g, p.mu * (D j a + D a j) * p.nPhys j := by
      rw [mul_sum]
      exact sum_congr rfl (fun j _ => by rw [hD, hD]; ring)
    have e2 : ∑ j ∈ range p.g, D' j j = r * ∑ j ∈ range p.g, D j j := by
      rw [mul_sum]
      exact sum_congr rfl (fun j _ => hD _ _)
    rw [e1, e2]
    ring
  have hd : p.dot (p.trac D') = r * p.dot (p.trac D) := by
    unfold ContactPoint.dot
    rw [mul_sum]
    exact sum_congr rfl (fun a ha => by rw [ht a (mem_range.mp ha)]; ring)
  have hdJ : p.dot J' = r * p.dot J := by
    unfold ContactPoint.dot
    rw [mul_sum]
    exact sum_congr rfl (fun a _ => by rw [hJ]; ring)
  have hT : ∀ a < p.g, p.tang (p.trac D') a = r * p.tang (p.trac D) a := by
    intro a ha
    unfold ContactPoint.tang
    rw [hd, ht a ha]; ring
  have hTJ : ∀ a, p.tang J' a = r * p.tang J a := by
    intro a
    unfold ContactPoint.tang
    rw [hdJ, hJ]; ring
  unfold ContactPoint.coupling
  rw [hd, hdJ]
  have s1 : vecLength p.g (fun a => p.tang J' a - theta * (p.h / gamma) * p.tang (p.trac D') a)
      = |r| * vecLength p.g (fun a => p.tang J a - theta * (p.h / gamma) * p.tang (p.trac D) a) := by
    rw [← vecLength_smul]
    exact vecLength_congr (fun a ha => by rw [hTJ, hT a ha]; ring)
  have s2 : vecLength p.g (fun a => p.tang J' a + r * p.dot J * p.tang p.oldNormal a - p.h / gamma * p.tang (p.trac D') a)
      = |r| * vecLength p.g (fun a => p.tang J a + p.dot J * p.tang p.oldNormal a - p.h / gamma * p.tang (p.trac D) a) := by
    rw [← vecLength_smul]
    exact vecLength_congr (fun a ha => by rw [hTJ, hT a ha]; ring)
  rw [s1, s2]
  have e1 : |r * p.dot J - p.h / gamma * (r * p.dot (p.trac D))| = |r| * |p.dot J - p.h / gamma * p.dot (p.trac D)| := by
    rw [← abs_mul]; congr 1; ring
  rw [e1, abs_mul, ← sq_abs r]
  ring

theorem jumpAt_smul (g : G) (i e cell f : ℕ) (r : ℝ) (u : ℕ → ℝ) (q a : ℕ) :
    jumpAt Y g i e cell f (fun d => r * u d) q a = r * jumpAt Y g i e cell f u q a := by
  unfold jumpAt valueAt oppositeAt
  rw [mul_sub, mul_sum, mul_sum]
  congr 1 <;> exact sum_congr rfl (fun _ _ => by ring)

theorem frictionCoupling_smul (Y : System G) (t : Tracked G) (gamma theta r : ℝ) (v : ℕ → ℝ) :
    frictionCoupling Y t gamma theta (fun d => r * v d) = r ^ 2 * frictionCoupling Y t gamma theta v := by
  unfold frictionCoupling
  rw [mul_sum]
  refine sum_congr rfl (fun i _ => ?_)
  rw [mul_sum]
  refine sum_congr rfl (fun e _ => ?_)
  cases hf : (Y.facets i)[e]? with
  | none => simp
  | some c =>
    simp only [Option.elim_some]
    rw [mul_sum]
    refine sum_congr rfl (fun q _ => ?_)
    rw [coupling_smul _ gamma theta r (J := jumpAt Y t.cur i e c.1 c.2 v q) (D := gradAt Y c.1 c.2 v q)
      (fun a => jumpAt_smul _ _ _ _ _ _ _ _ _) (fun a b => gradAt_smul c.1 c.2 r v q a b)]
    split
    · ring
    · simp

theorem frictionCoupling_cont {X : Type} [PseudoMetricSpace X] {U : X → ℕ → ℝ} (hU : ∀ d, Lip (fun x => U x d))
    (Y : System G) (t : Tracked G) (gamma theta : ℝ) : Continuous (fun x => frictionCoupling Y t gamma theta (U x)) := by
  unfold frictionCoupling
  refine continuous_finsetSum _ (fun i _ => continuous_finsetSum _ (fun e _ => ?_))
  cases hf : (Y.facets i)[e]? with
  | none => exact continuous_const
  | some c =>
    simp only [Option.elim_some]
    refine continuous_finsetSum _ (fun q _ => ?_)
    by_cases hk : 0 ≤ Y.map t.cur i (e * Y.nq + q)
    · simp only [if_pos hk]
      refine Continuous.const_mul ?_ _
      generalize pointAt Y t i e c.1 c.2 q = p
      have hJ : ∀ a, Lip (fun x => jumpAt Y t.cur i e c.1 c.2 (U x) q a) := fun a => jumpAt_lip hU _ _ _ _ _ _ a
      have hD : ∀ a b, Lip (fun x => gradAt Y c.1 c.2 (U x) q a b) := fun a b => gradAt_lip hU _ _ _ a b
      have hdJ : Continuous (fun x => p.dot (jumpAt Y t.cur i e c.1 c.2 (U x) q)) := (dot_lip (fun a _ => hJ a)).continuous
      have hdT : Continuous (fun x => p.dot (p.trac (gradAt Y c.1 c.2 (U x) q))) :=
        (dot_lip (fun a ha => trac_lip hD ha)).continuous
      have hTJ : ∀ a < p.g, Continuous (fun x => p.tang (jumpAt Y t.cur i e c.1 c.2 (U x) q) a) :=
        fun a ha => (tang_lip (fun a _ => hJ a) ha).continuous
      have hTT : ∀ a < p.g, Continuous (fun x => p.tang (p.trac (gradAt Y c.1 c.2 (U x) q)) a) :=
        fun a ha => (tang_lip (fun a ha => trac_lip hD ha) ha).continuous
      unfold ContactPoint.coupling vecLength
      refine Continuous.const_mul (Continuous.add ?_ ?_) _
      · refine Continuous.mul (((hdJ.sub (hdT.const_mul _)).abs).const_mul _) (Continuous.sqrt ?_)
        exact continuous_finsetSum _ (fun a ha =>
          ((hTJ a (mem_range.mp ha)).sub ((hTT a (mem_range.mp ha)).const_mul _)).pow 2)
      · refine Continuous.mul ((hdJ.abs).mul_const _) (Continuous.sqrt ?_)
        exact continuous_finsetSum _ (fun a ha =>
          (((hTJ a (mem_range.mp ha)).add (hdJ.mul_const _)).sub ((hTT a (mem_range.mp ha)).const_mul _)).pow 2)
    · simp only [if_neg hk]; exact continuous_const

/-- The constant of coercivity. -/
theorem coulomb_bound {t : Tracked G} {gamma theta : ℝ} {N : ℕ} {F : Finset ℕ} {K : ℕ → ℕ → ℝ}
    (hK : CoulombCoercive Y t gamma theta N F K) :
    ∃ m, 0 < m ∧ ∀ x : EuclideanSpace ℝ F, m * ‖x‖ ^ 2
      ≤ ∑ d ∈ range N, ∑ c ∈ range N, extend 0 x d * K d c * extend 0 x c
        - ((1 + theta) ^ 2 / (8 * gamma) * tractionSquare Y t .coulomb (extend 0 x)
          + frictionCoupling Y t gamma theta (extend 0 x)) := by
  refine coercive_const _ ?_ ?_ ?_
  · have hc : ∀ d, Continuous (fun x : EuclideanSpace ℝ F => extend 0 x d) := fun d => (extend_lip 0 d).continuous
    refine Continuous.sub ?_ (((tractionSquare_cont hc Y t .coulomb).const_mul _).add
      (frictionCoupling_cont (extend_lip 0) Y t gamma theta))
    exact continuous_finsetSum _ (fun d _ => continuous_finsetSum _ (fun c _ => ((hc d).mul_const _).mul (hc c)))
  · intro r x
    rw [extend_smul, tractionSquare_smul, frictionCoupling_smul, mul_sub]
    congr 1
    · rw [mul_sum]
      refine sum_congr rfl (fun d _ => ?_)
      rw [mul_sum]
      exact sum_congr rfl (fun c _ => by ring)
    · ring
  · intro x hx
    have := hK (extend 0 x) (fun d hd => extend_off _ _ hd) (extend_ne hx)
    linarith

/-- A continuous function, homogeneous of degree two, is bounded by a multiple of the square of the norm. -/
theorem homogeneous_bound {E : Type*} [NormedAddCommGroup E] [NormedSpace ℝ E] [FiniteDimensional ℝ E] (Q : E → ℝ)
    (hc : Continuous Q) (hh : ∀ (r : ℝ) x, Q (r • x) = r ^ 2 * Q x) : ∃ C, 0 ≤ C ∧ ∀ x, Q x ≤ C * ‖x‖ ^ 2 := by
  have : ProperSpace E := FiniteDimensional.proper ℝ E
  obtain ⟨C, hC⟩ := (isCompact_sphere (0 : E) 1).exists_bound_of_continuousOn hc.continuousOn
  refine ⟨max C 0, le_max_right _ _, fun x => ?_⟩
  by_cases hx : x = 0
  · have := hh 0 0
    rw [hx]
    simp at this
    simp [this]
  · have hx' : ‖x‖ ≠ 0 := norm_ne_zero_iff.mpr hx
    have hs : ‖x‖⁻¹ • x ∈ Metric.sphere (0 : E) 1 := by
      rw [mem_sphere_zero_iff_norm, norm_smul, norm_inv, norm_norm, inv_mul_cancel₀ hx']
    have h2 : Q (‖x‖⁻¹ • x) ≤ max C 0 := ((le_abs_self _).trans (hC _ hs)).trans (le_max_left _ _)
    rw [hh] at h2
    have h3 := mul_le_mul_of_nonneg_right h2 (sq_nonneg ‖x‖)
    have e : ‖x‖⁻¹ ^ 2 * Q x * ‖x‖ ^ 2 = Q x := by field_simp
    rwa [e] at h3

end

end Verif.ContactProblem
