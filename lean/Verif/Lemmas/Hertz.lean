import Verif.Model.Hertz
import Verif.Spec.Hertz
import Mathlib.Analysis.SpecialFunctions.Integrals.Basic
import Mathlib.MeasureTheory.Function.LocallyIntegrable
import Mathlib.Tactic.FieldSimp
import Mathlib.Tactic.Positivity

/-! Lemmas for C208 and C209: integrals of half ellipses, the values of the reference functions. -/

namespace Verif.Hertz

open Real MeasureTheory

/-- Half circle of radius `b`, zero outside. -/
noncomputable def arc (b x : ℝ) : ℝ := √(b ^ 2 - x ^ 2)

theorem arc_zero {b x : ℝ} (hb : 0 ≤ b) (h : b ≤ |x|) : arc b x = 0 := by
  apply Real.sqrt_eq_zero_of_nonpos
  have : b ^ 2 ≤ |x| ^ 2 := pow_le_pow_left₀ hb h 2
  rw [sq_abs] at this
  linarith

theorem sq_lt {b x : ℝ} (h : |x| < b) : 0 < b ^ 2 - x ^ 2 := by
  have : |x| ^ 2 < b ^ 2 := pow_lt_pow_left₀ h (abs_nonneg x) (by norm_num)
  rw [sq_abs] at this
  linarith

theorem arc_pos {b x : ℝ} (h : |x| < b) : 0 < arc b x := Real.sqrt_pos.2 (sq_lt h)

theorem arc_nonneg (b x : ℝ) : 0 ≤ arc b x := Real.sqrt_nonneg _

theorem arc_mono {b c x : ℝ} (hc : 0 ≤ c) (h : c ≤ b) : arc c x ≤ arc b x :=
  Real.sqrt_le_sqrt (by have := pow_le_pow_left₀ hc h 2; linarith)

theorem arc_continuous (b : ℝ) : Continuous (arc b) := by unfold arc; fun_prop

theorem arc_integrable {b : ℝ} (hb : 0 ≤ b) : Integrable (arc b) := by
  apply (arc_continuous b).integrable_of_hasCompactSupport
  apply HasCompactSupport.of_support_subset_isCompact (isCompact_Icc (a := -b) (b := b))
  intro x hx
  by_contra h
  apply hx
  apply arc_zero hb
  rw [Set.mem_Icc, ← abs_le] at h
  exact (not_le.1 h).le

theorem arc_integral {b : ℝ} (hb : 0 ≤ b) : ∫ x, arc b x = π * b ^ 2 / 2 := by
  have h1 : ∫ x in Set.Ioc (-b) b, arc b x = ∫ x, arc b x := by
    apply setIntegral_eq_integral_of_forall_compl_eq_zero
    intro x hx
    apply arc_zero hb
    by_contra h
    rw [not_le, abs_lt] at h
    exact hx ⟨h.1, h.2.le⟩
  rw [← h1, ← intervalIntegral.integral_of_le (by linarith)]
  have h2 := intervalIntegral.mul_integral_comp_mul_left (a := -1) (b := 1) (f := arc b) b
  rw [mul_neg_one, mul_one] at h2
  rw [← h2]
  have h3 : ∀ x : ℝ, arc b (b * x) = b * √(1 - x ^ 2) := by
    intro x
    rw [arc, show b ^ 2 - (b * x) ^ 2 = b ^ 2 * (1 - x ^ 2) by ring, Real.sqrt_mul (sq_nonneg b), Real.sqrt_sq hb]
  simp only [h3]
  rw [intervalIntegral.integral_const_mul, integral_sqrt_one_sub_sq]
  ring

theorem nsqrt_of_nonneg {x : ℝ} (h : 0 ≤ x) : nsqrt x = some (√x) := if_neg (not_lt.2 h)

theorem nsqrt_of_neg {x : ℝ} (h : x < 0) : nsqrt x = none := if_pos h

/-- The value of `_pressure`. -/
theorem pressure_eq {a : ℝ} (ha : 0 < a) (p0 x : ℝ) : pressure p0 a x = some (p0 / a * arc a x) := by
  unfold pressure
  split
  · rename_i h
    have h0 := sq_lt h
    have h1 : 1 - x ^ 2 / a ^ 2 = (a ^ 2 - x ^ 2) / a ^ 2 := by field_simp
    rw [h1, nsqrt_of_nonneg (by positivity), Option.map_some, Real.sqrt_div h0.le, Real.sqrt_sq ha.le]
    unfold arc
    congr 1
    ring
  · rename_i h
    rw [arc_zero ha.le (not_lt.1 h), mul_zero]

/-- The value of `_tangent` where the second condition is the intended one. -/
theorem tangentIf_eq {second : Prop} [Decidable second] {fric R p a c x : ℝ} (hc : 0 ≤ c) (hca : c ≤ a)
    (hs : second ↔ |x| < a) :
    tangentIf second fric R p a (some c) x = some (fric * 4 * R * p / (π * a ^ 2) * (arc a x - arc c x)) := by
  unfold tangentIf
  dsimp only
  have h2 : |x| ^ 2 = x ^ 2 := sq_abs x
  split
  · rename_i h
    have h3 := pow_le_pow_left₀ (abs_nonneg x) h 2
    have h4 := pow_le_pow_left₀ hc hca 2
    rw [nsqrt_of_nonneg (by linarith), nsqrt_of_nonneg (by linarith)]
    rfl
  · rename_i h
    rw [arc_zero hc (not_le.1 h).le, sub_zero]
    split
    · rename_i h3
      have := sq_lt (hs.1 h3)
      rw [nsqrt_of_nonneg this.le]
      rfl
    · rename_i h3
      rw [hs, not_lt] at h3
      rw [arc_zero (hc.trans hca) h3, mul_zero]

/-- The value of `_tangent` without a sticking zone. -/
theorem tangentIf_none {second : Prop} [Decidable second] {fric R p a x : ℝ} (ha : 0 ≤ a) (hs : second ↔ |x| < a) :
    tangentIf second fric R p a none x = some (fric * 4 * R * p / (π * a ^ 2) * arc a x) := by
  unfold tangentIf
  dsimp only
  split
  · rename_i h3
    have := sq_lt (hs.1 h3)
    rw [nsqrt_of_nonneg this.le]
    rfl
  · rename_i h3
    rw [hs, not_lt] at h3
    rw [arc_zero ha h3, mul_zero]

/-- What `reference` computes. -/
theorem reference_eq {R Estar fric pr : ℝ} (hR : 0 < R) (hE : 0 < Estar) (hf : 0 < fric) (hp : pr ≠ 0) (q : ℝ) :
    ∃ a, 0 < a ∧ a ^ 2 = 4 * R ^ 2 * |pr| / (π * Estar)
      ∧ reference R Estar fric pr q = some
        { a := a, p0 := 2 * (2 * R * |pr|) / (π * a), pr := |pr|,
          c := (nsqrt (1 - q / (fric * |pr|))).map (fun s => a * s) } := by
  have hp' : 0 < |pr| := abs_pos.2 hp
  have hπ := Real.pi_pos
  have hX : 0 < R * (2 * R * |pr|) / (2 * π * Estar) := by positivity
  refine ⟨2 * √(R * (2 * R * |pr|) / (2 * π * Estar)), by positivity, ?_, ?_⟩
  · rw [mul_pow, Real.sq_sqrt hX.le]
    field_simp
    ring
  · unfold reference
    rw [if_neg (by positivity)]
    dsimp only
    rw [nsqrt_of_nonneg hX.le]
    rfl

/-- The pressure with the computed numbers is that of Hertz. -/
theorem isHertz_arc {Rrel Estar P a : ℝ} (hR : 0 < Rrel) (hE : 0 < Estar) (hP : 0 < P) (ha : 0 < a)
    (hw : a ^ 2 = 4 * P * Rrel / (π * Estar)) :
    Spec.Hertz.IsHertz Rrel Estar P a (fun x => 2 * P / (π * a) / a * arc a x) := by
  have hπ := Real.pi_pos
  refine ⟨ha, hw, fun x hx => ?_, fun x hx => ?_, fun x hx => ?_, ?_⟩
  · rw [arc_zero ha.le hx, mul_zero]
  · have := arc_pos hx
    positivity
  · have h1 : (arc a x) ^ 2 = a ^ 2 - x ^ 2 := by
      apply Real.sq_sqrt
      have := pow_le_pow_left₀ (abs_nonneg x) hx 2
      rw [sq_abs] at this
      linarith
    have h2 : 2 * P / (π * a) / a = Estar / (2 * Rrel) := by
      rw [div_div, show π * a * a = π * a ^ 2 by ring, hw]
      field_simp
      ring
    have h3 : 2 * P / (π * a) / a * arc a x / (Estar * a / (2 * Rrel)) = arc a x / a := by
      rw [h2]
      field_simp
    rw [h3, div_pow, div_pow, h1]
    field_simp
    ring
  · rw [integral_const_mul, arc_integral ha.le]
    field_simp

end Verif.Hertz
